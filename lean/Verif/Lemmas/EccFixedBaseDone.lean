import Verif.Lemmas.EccFixedShort

/-! Multiplication of a fixed point by an element of the base field, by an honest prover. -/

namespace Verif.Lemmas.Ecc

open Verif.Gadget Verif.Spec.Gadget Verif.Spec Verif.Spec.Ecc Verif.Spec.EccFixed Verif.Lemmas.Gadget
open Verif.FloorPlanner (Call)
open Verif.Spec.Pow5 (SatAll FollowsAll)

/-- The checks hold of the canonical representative. -/
theorem canonical_holds {x prime z13 : Fp}
    (hp : prime = x - ((x.val / 2 ^ 252 : Nat) : Fp) * ((2 ^ 126 : Nat) : Fp) ^ 2 + ((2 ^ 65 : Nat) : Fp) ^ 2 - ((tP : Nat) : Fp))
    (hz : z13 * 2 ^ 130 = prime - ((prime.val % 2 ^ 130 : Nat) : Fp)) :
    ((x.val / 2 ^ 254 % 2 : Nat) : Fp) * ((x.val / 2 ^ 252 % 4 : Nat) : Fp) = 0 ∧
    ((x.val / 2 ^ 254 % 2 : Nat) : Fp) * (((x.val / 8 ^ 44 : Nat) : Fp) - ((x.val / 2 ^ 252 : Nat) : Fp) * ((2 ^ 60 : Nat) : Fp) ^ 2) = 0 ∧
    (x.val / 2 ^ 254 % 2 = 1 → ((x.val / 8 ^ 43 : Nat) : Fp) - ((x.val / 8 ^ 44 : Nat) : Fp) * 8 = 0) ∧
    ((x.val / 2 ^ 254 % 2 : Nat) : Fp) * z13 = 0 ∧
    ((x.val / 2 ^ 252 : Nat) : Fp) - (((x.val / 2 ^ 252 % 4 : Nat) : Fp) + ((x.val / 2 ^ 254 % 2 : Nat) : Fp) * 4) = 0 := by
  have hpe := pallas_eq
  have ht : tP < 2 ^ 126 := by decide +kernel
  have hx := ZMod.val_lt x
  have hxv : ((x.val : Nat) : Fp) = x := ZMod.natCast_zmod_val x
  have h130 : (2 : Fp) ^ 130 ≠ 0 := by decide +kernel
  generalize x.val = N at *
  have e5 : N / 2 ^ 252 = N / 2 ^ 252 % 4 + N / 2 ^ 254 % 2 * 4 := by
    have : N / 2 ^ 252 / 4 = N / 2 ^ 254 := by
      rw [Nat.div_div_eq_div_mul, show 2 ^ 252 * 4 = 2 ^ 254 by norm_num]
    have : N / 2 ^ 254 < 2 := Nat.div_lt_of_lt_mul (by omega)
    omega
  have g5 : ((N / 2 ^ 252 : Nat) : Fp) - (((N / 2 ^ 252 % 4 : Nat) : Fp) + ((N / 2 ^ 254 % 2 : Nat) : Fp) * 4) = 0 := by
    rw [sub_eq_zero]
    exact_mod_cast congrArg (Nat.cast (R := Fp)) e5
  by_cases hbig : 2 ^ 254 ≤ N
  · obtain ⟨r, rfl⟩ := Nat.exists_eq_add_of_le hbig
    have hr : r < tP := by omega
    have e1 : (2 ^ 254 + r) / 2 ^ 252 = 4 := by
      rw [Nat.div_eq_of_lt_le] <;> omega
    have e2 : (2 ^ 254 + r) / 2 ^ 254 = 1 := by
      rw [Nat.div_eq_of_lt_le] <;> omega
    have e3 : (2 ^ 254 + r) / 8 ^ 44 = 2 ^ 122 := by
      rw [show (8 : Nat) ^ 44 = 2 ^ 132 by norm_num]
      rw [Nat.div_eq_of_lt_le] <;> omega
    have e4 : (2 ^ 254 + r) / 8 ^ 43 = 2 ^ 125 := by
      rw [show (8 : Nat) ^ 43 = 2 ^ 129 by norm_num]
      rw [Nat.div_eq_of_lt_le] <;> omega
    have hpr : prime = ((r + 2 ^ 130 - tP : Nat) : Fp) := by
      rw [hp, e1, ← hxv, Nat.cast_sub (by omega)]
      push_cast
      ring
    have h13 : z13 = 0 := by
      have : prime.val = r + 2 ^ 130 - tP := by rw [hpr]; exact ZMod.val_natCast_of_lt (by omega)
      rw [Nat.mod_eq_of_lt (by omega), ZMod.natCast_zmod_val, sub_self] at hz
      exact (mul_eq_zero.1 hz).resolve_right h130
    refine ⟨?_, ?_, fun _ => ?_, ?_, g5⟩
    · rw [e1]; norm_num
    · rw [e1, e3]
      refine mul_eq_zero_of_right _ ?_
      decide +kernel
    · rw [e3, e4]
      decide +kernel
    · rw [h13, mul_zero]
  · have e2 : N / 2 ^ 254 = 0 := Nat.div_eq_of_lt (by omega)
    refine ⟨?_, ?_, fun h => ?_, ?_, g5⟩
    · rw [e2]; norm_num
    · rw [e2]; norm_num
    · rw [e2] at h; simp at h
    · rw [e2]; norm_num

/-- The gate holds of the canonical representative. -/
theorem canon_gate {c : MulBaseField} {f : Col → Int → Fp} {sel : Selector → Int → Bool} {x prime z13 a1 a2 : Fp}
    (q0 : f (.advice (c.canon 0)) ((0 : Nat) : Int) = x) (q1 : f (.advice (c.canon 2)) ((0 : Nat) : Int) = ((x.val / 2 ^ 252 : Nat) : Fp))
    (q2 : f (.advice (c.canon 0)) ((1 : Nat) : Int) = prime) (q3 : f (.advice (c.canon 1)) ((1 : Nat) : Int) = a1)
    (q4 : f (.advice (c.canon 2)) ((1 : Nat) : Int) = a2) (q5 : f (.advice (c.canon 0)) ((2 : Nat) : Int) = z13)
    (q6 : f (.advice (c.canon 1)) ((2 : Nat) : Int) = ((x.val / 8 ^ 44 : Nat) : Fp))
    (q7 : f (.advice (c.canon 2)) ((2 : Nat) : Int) = ((x.val / 8 ^ 43 : Nat) : Fp))
    (hprime : prime = x - ((x.val / 2 ^ 252 : Nat) : Fp) * ((2 ^ 126 : Nat) : Fp) ^ 2 + ((2 ^ 65 : Nat) : Fp) ^ 2 - ((tP : Nat) : Fp))
    (l5 : z13 * 2 ^ 130 = prime - ((prime.val % 2 ^ 130 : Nat) : Fp)) (ha1 : a1 = ((x.val / 2 ^ 252 % 4 : Nat) : Fp))
    (ha2 : a2 = ((x.val / 2 ^ 254 % 2 : Nat) : Fp)) : ∀ e ∈ (c.polys : List (Verif.Gadget.Expr Fp)), e.eval sel f ((1 : Nat) : Int) = 0 := by
  intro e he
  have r0 : ((1 : Nat) : Int) + -1 = ((0 : Nat) : Int) := by norm_num
  have r1 : ((1 : Nat) : Int) + 0 = ((1 : Nat) : Int) := by norm_num
  have r2 : ((1 : Nat) : Int) + 1 = ((2 : Nat) : Int) := by norm_num
  obtain ⟨j1, j2, j3, j4, j5⟩ := canonical_holds hprime l5
  rw [← ha1, ← ha2] at j1 j5
  rw [← ha2] at j2 j4
  simp only [MulBaseField.polys, List.mem_cons, List.not_mem_nil, or_false] at he
  rcases he with rfl | rfl | rfl | rfl | rfl | rfl | rfl | rfl
  · simp only [eval_mul, eval_advice, r1, q3, q4]; exact j1
  · simp only [eval_mul, eval_sub, eval_const, eval_advice, r0, r1, r2, q1, q4, q6]; exact j2
  · rw [eval_mul, eval_advice, r1, q4]
    by_cases h1 : x.val / 2 ^ 254 % 2 = 1
    · refine mul_eq_zero_of_right _ ?_
      unfold boolCheck
      rw [eval_rangeCheck _ _ _ _ (by norm_num)]
      refine ⟨0, by norm_num, ?_⟩
      simp only [eval_sub, eval_scaled, eval_advice, r2, q6, q7]
      rw [j3 h1]
      simp
    · have : x.val / 2 ^ 254 % 2 = 0 := by omega
      rw [ha2, this, Nat.cast_zero, zero_mul]
  · simp only [eval_mul, eval_advice, r1, r2, q4, q5]; exact j4
  · rw [eval_rangeCheck _ _ _ _ (by norm_num)]
    exact ⟨x.val / 2 ^ 252 % 4, Nat.mod_lt _ (by norm_num), by rw [eval_advice, r1, q3, ha1]⟩
  · unfold boolCheck
    rw [eval_rangeCheck _ _ _ _ (by norm_num)]
    exact ⟨x.val / 2 ^ 254 % 2, Nat.mod_lt _ (by norm_num), by rw [eval_advice, r1, q4, ha2]⟩
  · simp only [eval_sub, eval_add, eval_scaled, eval_advice, r0, r1, q1, q3, q4]
    exact j5
  · simp only [eval_sub, eval_add, eval_scaled, eval_const, eval_advice, r0, r1, q0, q1, q2]
    rw [hprime]
    ring

theorem witnessCheck_of {o : RangeCheck} {region : Nat} {v : Option Fp} {calls : Calls Fp} {zs : List (Assigned Fp)}
    (h : o.copyCheck 10 region ⟨⟨region, 0, .advice o.runningSum⟩, v⟩ 13 false = .ok (calls, zs)) :
    ∃ more, calls = [.advice o.runningSum 0 v, .equal ⟨region, 0, .advice o.runningSum⟩ ⟨region, 0, .advice o.runningSum⟩] ++ more ∧
      o.witnessCheck 10 region v 13 false = .ok ([.advice o.runningSum 0 v] ++ more, zs) := by
  obtain ⟨more, h1, rfl⟩ := copyCheck_split h
  refine ⟨more, rfl, ?_⟩
  unfold RangeCheck.witnessCheck assignAdvice
  simp only at h1 ⊢
  rw [h1]
  rfl

/-- A check by lookup of a value that is assigned, by an honest prover. -/
theorem witnessCheck_good {o : RangeCheck} (hd : Verif.Props.RangeCheckDistinct o) {table : Nat → List Fp}
    (ht : IsTable 10 (table o.tableIdx)) (region : Nat) (x : Fp) :
    ∃ calls zs, o.witnessCheck 10 region (some x) 13 false = .ok (calls, zs) ∧ zs.length = 14 ∧
      (∀ h : 0 < zs.length, zs[0].value = some x) ∧
      ∀ w, Follows w region calls → Sat (o.chip 10) table w region calls ∧
        (∀ s r, Call.enable s r ∈ calls → s = o.qLookup ∨ s = o.qRunning) ∧
        (∀ h : 0 < zs.length, Known w zs[0]) ∧
        ∀ h : 13 < zs.length, Known w zs[13] ∧ w.at zs[13].cell * 2 ^ 130 = x - ((x.val % 2 ^ 130 : Nat) : Fp) := by
  obtain ⟨calls, zs, h, hl⟩ := copyCheck_total o region ⟨⟨region, 0, .advice o.runningSum⟩, some x⟩
  obtain ⟨more, rfl, hw⟩ := witnessCheck_of h
  have hzs : ∃ t, zs = ⟨⟨region, 0, .advice o.runningSum⟩, some x⟩ :: t := by
    obtain ⟨m, h1, -⟩ := copyCheck_split h
    obtain ⟨-, -, words, -, -, hz, -⟩ := rangeCheck_shape h1
    exact ⟨_, hz⟩
  obtain ⟨t, hzs⟩ := hzs
  refine ⟨_, zs, hw, hl, fun h0 => by simp only [hzs, List.getElem_cons_zero], fun w hf => ?_⟩
  have hk : (some x : Option Fp) = some (w region (.advice o.runningSum) ((0 : Nat) : Int)) := hf.1 o.runningSum 0 _ (by simp)
  have hka : Known w (⟨⟨region, 0, .advice o.runningSum⟩, some x⟩ : Assigned Fp) := hk
  have hf' : Follows w region ([.advice o.runningSum 0 (some x), .equal ⟨region, 0, .advice o.runningSum⟩ ⟨region, 0, .advice o.runningSum⟩] ++ more) := by
    refine ⟨fun c r v hm => hf.1 c r v ?_, fun c r v hm => hf.2.1 c r v ?_, fun c r v hm => hf.2.2 c r v ?_⟩ <;>
      simpa using hm
  obtain ⟨a1, a2, z, a3, a4, a5⟩ := copyCheck_honest hd ht h rfl hka hf'
  have hen : ∀ s r, Call.enable s r ∈ ([.advice o.runningSum 0 (some x)] ++ more : Calls Fp) ↔ Call.enable s r ∈
      ([.advice o.runningSum 0 (some x), .equal ⟨region, 0, .advice o.runningSum⟩ ⟨region, 0, .advice o.runningSum⟩] ++ more : Calls Fp) := by
    intro s r; simp
  have hsel : enabled ([.advice o.runningSum 0 (some x)] ++ more : Calls Fp) = enabled
      ([.advice o.runningSum 0 (some x), .equal ⟨region, 0, .advice o.runningSum⟩ ⟨region, 0, .advice o.runningSum⟩] ++ more : Calls Fp) := by
    funext s r
    rw [Bool.eq_iff_iff, enabled_iff, enabled_iff]
    exact ⟨fun ⟨q, h, e⟩ => ⟨q, (hen s q).1 h, e⟩, fun ⟨q, h, e⟩ => ⟨q, (hen s q).2 h, e⟩⟩
  refine ⟨⟨fun k hk => a1.enforced k ?_, ?_, ?_⟩, fun s r hm => a2 s r ((hen s r).1 hm), fun h0 => ?_, fun h13 => ?_⟩
  · rcases List.mem_append.1 hk with h | h
    · rw [List.mem_singleton.1 h]
      exact List.mem_append_left _ List.mem_cons_self
    · exact List.mem_append_right _ h
  · rw [hsel]; exact a1.gates
  · rw [hsel]; exact a1.lookups
  · simp only [hzs, List.getElem_cons_zero]; exact hka
  · rw [List.getLast?_eq_getElem?, show zs.length - 1 = 13 by omega, List.getElem?_eq_getElem h13] at a3
    cases a3
    exact ⟨a4, a5⟩

section base

variable {c : MulBaseField} {start : Nat} {base : FixedBase pallasBase} {B : Pt (5 : Fp)} {scalar : Assigned Fp}
  {table : Nat → List Fp} {chip : Chip Fp}

/-- The selectors of the gates and of the lookup. -/
def baseSelectors (c : MulBaseField) : List Selector := [c.qBase, c.sup.runningSum.qRangeCheck, c.sup.add.qAdd,
  c.sup.addIncomplete.qAddIncomplete, c.lookup.qBitshift, c.lookup.qLookup, c.lookup.qRunning]

theorem shift_selector {o : RangeCheck} {g : Selector × List (Verif.Gadget.Expr Fp)} (h : g ∈ (o.chip 10 : Chip Fp).gates) :
    g.1 = o.qBitshift := by
  simp only [RangeCheck.chip, List.mem_singleton] at h
  rw [h]

/-- Multiplication by an element of the base field, by an honest prover. -/
theorem base_complete (hc : c.sup.runningSum.z = c.sup.window) (hchip : c.chip (5 : Fp) = .ok chip)
    (hd : (baseSelectors c).Nodup) (ht : IsTable 10 (table c.lookup.tableIdx))
    (t : TableOf 85 B base) (hB : B ≠ 0) {x : Fp} (hx : scalar.value = some x) :
    ∃ regions out, c.assign (q := vestaBase) start scalar base = .ok (regions, out) ∧
      ∀ w, FollowsAll w start regions → Known w scalar → SatAll chip table w start regions ∧ KnownPoint w out ∧
        Holds w out (x.val • B) := by
  have hsz : 255 ≤ pallasBase.size := by
    have : 2 ^ 254 < pallasBase := by decide +kernel
    have := Nat.lt_size.2 this.le
    omega
  have h255 : pallasBase < 2 ^ 255 := by decide +kernel
  have h256 : pallasBase < 2 ^ 256 := by decide +kernel
  obtain ⟨ks, c0, zs, c1, acc, mulB, h1, h2, h3, e1, e2, e3, e4, e5, v1, v2, g⟩ := sum_good (c := c.sup) (start := start) (n := 85) (bits := 255) hc t hB hx
    (Nat.lt_trans (ZMod.val_lt x) h255) (by norm_num) (by norm_num) (by norm_num) (by norm_num) (last_full hB)
  have k0 : 0 < zs.length := by omega
  have k43 : 43 < zs.length := by omega
  have k44 : 44 < zs.length := by omega
  have k84 : 84 < zs.length := by omega
  have hv : ∀ i (hi : i < zs.length), i ≤ 85 → zs[i].value = some ((x.val / 8 ^ i : Nat) : Fp) := fun i hi hi' => by
    rw [e5 i hi, rest_div e2 i (by omega), e3]
  have hv0 : zs[0].value = some x := by
    rw [e5 0 k0, e3, ZMod.natCast_zmod_val]
  have hv84 : zs[84].value = some ((x.val / 2 ^ 252 : Nat) : Fp) := by
    rw [hv 84 k84 (by norm_num)]
    norm_num
  have hv43 := hv 43 k43 (by norm_num)
  have hv44 := hv 44 k44 (by norm_num)
  obtain ⟨prime, hprime⟩ : ∃ v : Fp, v = x - ((x.val / 2 ^ 252 : Nat) : Fp) * ((2 ^ 126 : Nat) : Fp) ^ 2 + ((2 ^ 65 : Nat) : Fp) ^ 2 - ((tP : Nat) : Fp) :=
    ⟨_, rfl⟩
  have hdl : Verif.Props.RangeCheckDistinct c.lookup := by
    have h : (baseSelectors c).drop 4 = [c.lookup.qBitshift, c.lookup.qLookup, c.lookup.qRunning] := rfl
    have := hd.sublist (List.drop_sublist 4 _)
    rw [h] at this
    simp only [List.nodup_cons, List.mem_cons, List.not_mem_nil, or_false, not_or] at this
    exact ⟨this.2.1, fun e => this.1.2 e.symm, fun e => this.1.1 e.symm⟩
  obtain ⟨c2, sums, h4, hl, hs0, g2⟩ := witnessCheck_good hdl ht (start + 2) prime
  have s0 : 0 < sums.length := by omega
  have s13 : 13 < sums.length := by omega
  have hprv : primeOf zs[0].value zs[84].value = some prime := by
    rw [hv0, hv84, hprime]; rfl
  obtain ⟨a1, ha1⟩ : ∃ a : Fp, a = ((x.val / 2 ^ 252 % 4 : Nat) : Fp) := ⟨_, rfl⟩
  obtain ⟨a2, ha2⟩ : ∃ a : Fp, a = ((x.val / 2 ^ 254 % 2 : Nat) : Fp) := ⟨_, rfl⟩
  have h5 : (onKnown zs[0].value fun a => bitrangeSubset a 252 254) = .ok (some a1) := by
    rw [hv0, onKnown, bitrangeSubset_ok h256 x (by norm_num) (by omega), ha1]
    rfl
  have h6 : (onKnown zs[0].value fun a => bitrangeSubset a 254 255) = .ok (some a2) := by
    rw [hv0, onKnown, bitrangeSubset_ok h256 x (by norm_num) (by omega), ha2]
    rfl
  refine ⟨[c0 ++ c1, (c.sup.add.assign (start + 1) mulB acc 0).1, c2, baseCalls c (start + 3) zs[0] zs[84] sums[0] sums[13] zs[44] zs[43] (some a1) (some a2)],
    (c.sup.add.assign (start + 1) mulB acc 0).2, ?_, ?_⟩
  · unfold MulBaseField.assign
    rw [h1, ok_then]
    simp only
    rw [h2, ok_then, h3, ok_then]
    simp only [List.getElem?_eq_getElem k0, List.getElem?_eq_getElem k43, List.getElem?_eq_getElem k44, List.getElem?_eq_getElem k84]
    have h4' : c.lookup.witnessCheck 10 (start + 2) (primeOf zs[0].value zs[84].value) 13 false = .ok (c2, sums) := by rw [hprv, h4]
    unfold primeOf at h4'
    rw [h4', ok_then]
    simp only [List.getElem?_eq_getElem s0, List.getElem?_eq_getElem s13]
    rw [h5, ok_then, h6, ok_then]
    rfl
  · intro w hf hk
    have f0 : Follows w start (c0 ++ c1) := hf 0 (by simp)
    have f1 : Follows w (start + 1) (c.sup.add.assign (start + 1) mulB acc 0).1 := hf 1 (by simp)
    have f2 : Follows w (start + 2) c2 := hf 2 (by simp)
    have f3 : Follows w (start + 3) (baseCalls c (start + 3) zs[0] zs[84] sums[0] sums[13] zs[44] zs[43] (some a1) (some a2)) := hf 3 (by simp)
    obtain ⟨b1, b2, b3, b4, b5⟩ := g w f0 hk
    obtain ⟨⟨d1, d1'⟩, d2, d3⟩ := add_good usable_pallas f1 b4 b3 (v2.holds b4) (v1.holds b3)
    obtain ⟨l1, l2, l3, l4⟩ := g2 w f2
    obtain ⟨l4, l5⟩ := l4 s13
    have hws := windows_sum (n := 85) (B := B) (by norm_num) (fun i => ks.getD i 0)
    beta_reduce at hws
    have hsv : ∑ i ∈ Finset.range 85, ks.getD i 0 * 8 ^ i = x.val := by
      rw [← e3, rest, e1]
      simp only [Nat.sub_zero, Nat.zero_add]
    rw [hws, hsv] at d3
    obtain ⟨-, m1, m2, -, m3⟩ := base_gates hchip
    simp only [baseSelectors, List.nodup_cons, List.mem_cons, List.not_mem_nil, or_false, not_or] at hd
    obtain ⟨⟨x1, x2, x3, x4, x5, x6⟩, ⟨y1, y2, y3, y4, y5⟩, ⟨z1, z2, z3, z4⟩, ⟨u1, u2, u3⟩, ⟨t1, t2⟩, r1, -⟩ := hd
    have nolook : ∀ (region : Nat) (calls : Calls Fp), (∀ r, Call.enable c.lookup.qLookup r ∉ calls) →
        ∀ l ∈ chip.lookups, ∀ row : Int, l.1.eval (enabled calls) (w region) row ∈ table l.2 := by
      intro region calls hno l hm row
      rw [m1] at hm
      obtain ⟨i1, i2⟩ := eval_lookup (c := c.lookup) (k := 10) (sel := enabled calls) (w := w region) (row := row) l hm
      rw [i1, i2]
      have h0 : enabled calls c.lookup.qLookup row = false := by
        rw [← Bool.not_eq_true, enabled_iff]
        rintro ⟨o, ho, -⟩
        exact hno o ho
      rw [h0, if_neg (by simp), zero_mul]
      exact (ht 0).2 ⟨0, by norm_num, by simp⟩
    refine ⟨?_, d2, d3⟩
    intro i hi
    have hi' : i = 0 ∨ i = 1 ∨ i = 2 ∨ i = 3 := by simp at hi; omega
    rcases hi' with rfl | rfl | rfl | rfl
    · refine ⟨b1, gates_of fun g hg e he o ho => ?_, nolook _ _ fun r hr => ?_⟩
      · have hen := b2 _ _ ho
        rcases m3 g hg with rfl | rfl | rfl | h | h | rfl
        · rcases hen with ⟨h, -⟩ | ⟨-, h⟩
          · exact absurd h y2
          · exact h _ e (by rw [List.mem_singleton.1 he]; exact List.mem_cons_self)
        · rcases hen with ⟨h, -⟩ | ⟨-, h⟩
          · exact absurd h y2
          · exact h _ e (List.mem_cons_of_mem _ he)
        · rcases hen with ⟨h, -⟩ | ⟨h, -⟩
          · exact absurd h z1
          · exact absurd h.symm y1
        · rw [inc_selector h] at hen
          rcases hen with ⟨-, h'⟩ | ⟨h', -⟩
          · exact h' _ g h e he
          · exact absurd h'.symm y2
        · rw [shift_selector h] at hen
          rcases hen with ⟨h', -⟩ | ⟨h', -⟩
          · exact absurd h'.symm u1
          · exact absurd h'.symm y3
        · rcases hen with ⟨h, -⟩ | ⟨h, -⟩
          · exact absurd h x3
          · exact absurd h x1
      · rcases b2 _ _ hr with ⟨h, -⟩ | ⟨h, -⟩
        · exact absurd h.symm u2
        · exact absurd h.symm y4
    · refine ⟨d1, gates_of fun g hg e he o ho => ?_, nolook _ _ fun r hr => ?_⟩
      · obtain ⟨hs, rfl⟩ := add_enable.1 ho
        rcases m3 g hg with rfl | rfl | rfl | h | h | rfl
        · exact absurd hs y1
        · exact absurd hs y1
        · obtain ⟨es, n1, n2⟩ := d1' _ _ ho
          have : es = c.sup.add.polys := by
            simp only [AddComplete.chip, List.mem_singleton, Prod.mk.injEq] at n1
            exact n1.2
          subst this
          exact n2 _ e he
        · rw [inc_selector h] at hs; exact absurd hs.symm z1
        · rw [shift_selector h] at hs; exact absurd hs.symm z2
        · exact absurd hs x2
      · exact absurd (add_enable.1 hr).1.symm z3
    · refine ⟨l1.enforced, gates_of fun g hg e he o ho => ?_, fun l hm => l1.lookups l (by rw [← m1]; exact hm)⟩
      have hen := l2 _ _ ho
      rcases m3 g hg with rfl | rfl | rfl | h | h | rfl
      · exact absurd hen (not_or.2 ⟨y4, y5⟩)
      · exact absurd hen (not_or.2 ⟨y4, y5⟩)
      · exact absurd hen (not_or.2 ⟨z3, z4⟩)
      · rw [inc_selector h] at hen; exact absurd hen (not_or.2 ⟨u2, u3⟩)
      · rw [shift_selector h] at hen; exact absurd hen (not_or.2 ⟨t1, t2⟩)
      · exact absurd hen (not_or.2 ⟨x5, x6⟩)
    · have hen : ∀ s o, Call.enable s o ∈ baseCalls c (start + 3) zs[0] zs[84] sums[0] sums[13] zs[44] zs[43] (some a1) (some a2) → s = c.qBase ∧ o = 1 := by
        intro s o h
        simpa [baseCalls, copyAdvice, assignAdvice] using h
      have cell : ∀ (col o : Nat) (v : Fp), Call.advice col o (some v) ∈ baseCalls c (start + 3) zs[0] zs[84] sums[0] sums[13] zs[44] zs[43] (some a1) (some a2) →
          w (start + 3) (.advice col) (o : Int) = v := fun col o v hm => follows_at f3 hm
      have q0 := cell (c.canon 0) 0 x (by simp [baseCalls, copyAdvice, hv0])
      have q1 := cell (c.canon 2) 0 _ (by rw [← hv84]; simp [baseCalls, copyAdvice])
      have q2 := cell (c.canon 0) 1 prime (by rw [← hs0 s0]; simp [baseCalls, copyAdvice])
      have q3 := cell (c.canon 1) 1 a1 (by simp [baseCalls, assignAdvice])
      have q4 := cell (c.canon 2) 1 a2 (by simp [baseCalls, assignAdvice])
      have q5 := cell (c.canon 0) 2 (w.at sums[13].cell) (by
        have : sums[13].value = some (w.at sums[13].cell) := l4
        rw [← this]; simp [baseCalls, copyAdvice])
      have q6 := cell (c.canon 1) 2 _ (by rw [← hv44]; simp [baseCalls, copyAdvice])
      have q7 := cell (c.canon 2) 2 _ (by rw [← hv43]; simp [baseCalls, copyAdvice])
      refine ⟨?_, gates_of fun g hg e he o ho => ?_, nolook _ _ fun r hr => absurd (hen _ _ hr).1.symm x5⟩
      · have known : ∀ (z : Assigned Fp) (v : Fp), Known w z → z.value = some v → w.at z.cell = v := fun z v h1 h2 =>
          (Option.some.inj (h2.symm.trans h1)).symm
        intro k hk
        simp only [List.getElem_cons_succ, List.getElem_cons_zero, baseCalls, copyAdvice, assignAdvice, List.mem_cons, List.mem_append, List.not_mem_nil, or_false] at hk
        rcases hk with rfl | ((((((((rfl | rfl) | (rfl | rfl)) | (rfl | rfl)) | rfl) | rfl) | (rfl | rfl)) | (rfl | rfl)) | (rfl | rfl))
        · exact True.intro
        · exact True.intro
        · exact q0.trans (known _ _ (b5 0 k0) hv0).symm
        · exact True.intro
        · exact q1.trans (known _ _ (b5 84 k84) hv84).symm
        · exact True.intro
        · exact q2.trans (known _ _ (l3 s0) (hs0 s0)).symm
        · exact True.intro
        · exact True.intro
        · exact True.intro
        · exact q5
        · exact True.intro
        · exact q6.trans (known _ _ (b5 44 k44) hv44).symm
        · exact True.intro
        · exact q7.trans (known _ _ (b5 43 k43) hv43).symm
      · obtain ⟨hs, rfl⟩ := hen _ _ ho
        rcases m3 g hg with rfl | rfl | rfl | h | h | rfl
        · exact absurd hs.symm x1
        · exact absurd hs.symm x1
        · exact absurd hs.symm x2
        · rw [inc_selector h] at hs; exact absurd hs.symm x3
        · rw [shift_selector h] at hs; exact absurd hs.symm x4
        · exact canon_gate q0 q1 q2 q3 q4 q5 q6 q7 hprime l5 ha1 ha2 e he

end base

end Verif.Lemmas.Ecc
