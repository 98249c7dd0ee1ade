import Verif.Lemmas.EccFixedBase

/-! Multiplication of a fixed point by what is in a running sum, by an honest prover. -/

namespace Verif.Lemmas.Ecc

open Verif.Gadget Verif.Spec.Gadget Verif.Spec Verif.Spec.Ecc Verif.Spec.EccFixed Verif.Lemmas.Gadget
open Verif.FloorPlanner (Call)
open Verif.Spec.Pow5 (SatAll FollowsAll)

/-- What is left of digits after the first ones. -/
def rest (ks : List Nat) (j : Nat) : Nat := ∑ i ∈ Finset.range (ks.length - j), ks.getD (j + i) 0 * 8 ^ i

theorem rest_step {ks : List Nat} {j : Nat} (h : j < ks.length) : rest ks j = ks.getD j 0 + 8 * rest ks (j + 1) := by
  unfold rest
  obtain ⟨m, hm⟩ : ∃ m, ks.length - j = m + 1 := ⟨ks.length - j - 1, by omega⟩
  rw [hm, show ks.length - (j + 1) = m by omega]
  exact split_low (fun i => ks.getD i 0) j m

theorem rest_last (ks : List Nat) : rest ks ks.length = 0 := by simp [rest]

theorem getD_lt {ks : List Nat} (hd : ∀ k ∈ ks, k < 8) (i : Nat) : ks.getD i 0 < 8 := by
  by_cases hi : i < ks.length
  · rw [List.getD_eq_getElem _ _ hi]; exact hd _ (List.getElem_mem hi)
  · rw [List.getD_eq_default _ _ (by omega)]; norm_num

theorem rest_div {ks : List Nat} (hd : ∀ k ∈ ks, k < 8) : ∀ j ≤ ks.length, rest ks j = rest ks 0 / 8 ^ j
  | 0, _ => by simp
  | j + 1, h => by
    have ih := rest_div hd j (by omega)
    rw [rest_step (by omega)] at ih
    have := getD_lt hd j
    rw [pow_succ, ← Nat.div_div_eq_div_mul, ← ih]
    omega

/-- The digits are found in a running sum. -/
theorem sumWindows_digits : ∀ (ks : List Nat) (l : List (Assigned Fp)) (f : Nat → Fp), (∀ k ∈ ks, k < 8) →
    l.length = ks.length + 1 → (∀ i (hi : i < l.length), l[i].value = some (f i)) →
    (∀ i (hi : i < ks.length), f i - f (i + 1) * 8 = ((ks[i] : Nat) : Fp)) →
    MulFixed.sumWindows (q := vestaBase) l = .ok (ks.map fun (d : Nat) => some (d : ZMod vestaBase))
  | [], [a], _, _, _, _, _ => rfl
  | k :: ks, a :: b :: l, f, hk, hl, hv, hf => by
    have hq : 8 < vestaBase := by decide +kernel
    have hp : 8 < pallasBase := by decide +kernel
    have h8 := hk k List.mem_cons_self
    have ih := sumWindows_digits ks (b :: l) (fun i => f (i + 1)) (fun x hx => hk x (List.mem_cons_of_mem _ hx))
      (by simpa using hl) (fun i hi => hv (i + 1) (by simpa using hi)) (fun i hi => hf (i + 1) (by simpa using hi))
    have v0 : a.value = some (f 0) := hv 0 (by simp)
    have v1 : b.value = some (f 1) := hv 1 (by simp)
    have e0 : f 0 - f 1 * 8 = ((k : Nat) : Fp) := hf 0 (by simp)
    have hval : ((k : Fp)).val = k := ZMod.val_natCast_of_lt (by omega)
    have e1 : (onKnown (do let cur ← a.value; let next ← b.value; return cur - next * 8) fun v => (do
        assert (v.val < vestaBase)
        return ((v.val : Nat) : ZMod vestaBase) : Except Stop _)) = .ok (some ((k : Nat) : ZMod vestaBase)) := by
      rw [v0, v1]
      simp only [bind, Option.bind, pure, onKnown, e0, hval]
      rw [assert_ok.2 (by simpa using Nat.lt_trans h8 hq)]
      rfl
    unfold MulFixed.sumWindows at ih ⊢
    simp only [List.drop_succ_cons, List.drop_zero, List.zip_cons_cons] at ih ⊢
    rw [List.mapM_cons, e1, ok_then, ih]
    rfl
  | [], [], _, _, h, _, _ => by simp at h
  | [], _ :: _ :: _, _, _, h, _, _ => by simp at h
  | _ :: _, [], _, _, h, _, _ => by simp at h
  | _ :: _, [_], _, _, h, _, _ => by simp at h

section sum

variable {c : MulFixed} {start n bits : Nat} {base : FixedBase pallasBase} {B : Pt (5 : Fp)} {a : Assigned Fp} {x : Fp}

/-- The values of a running sum. -/
theorem copy_good (hx : a.value = some x) (hb : x.val < 2 ^ bits) (hbits : bits ≤ 256) (hn : (bits + 3 - 1) / 3 = n) :
    ∃ ks c0 zs, c.runningSum.copy 3 start 0 a true bits n = .ok (c0, zs) ∧ ks.length = n ∧ (∀ k ∈ ks, k < 8) ∧
      rest ks 0 = x.val ∧ zs.length = n + 1 ∧ (∀ i (hi : i < zs.length), zs[i].value = some ((rest ks i : Nat) : Fp)) ∧
      ∀ w, Follows w start c0 → Known w a → (∀ k ∈ c0, Enforced w start k) ∧
        (∀ s o, Call.enable s o ∈ c0 → s = c.runningSum.qRangeCheck ∧ ∃ i < n, o = 0 + i) ∧
        (∀ i (hi : i < zs.length), Known w zs[i]) ∧
        ∀ i ≤ n, w start (.advice c.runningSum.z) ((0 + i : Nat) : Int) = ((rest ks i : Nat) : Fp) := by
  obtain ⟨ks, hks, hkl, hlt, hsum⟩ := decomposeWord_ok x (wordBits := bits) (windowBits := 3) (by norm_num) (by norm_num) hbits
  rw [hn] at hkl
  have h8 : (2 : Fp) ^ 3 ≠ 0 := by decide +kernel
  obtain ⟨⟨more, zs⟩, hdec⟩ : ∃ r, c.runningSum.decompose 3 start 0 ⟨⟨start, 0, .advice c.runningSum.z⟩, a.value⟩ true bits n = .ok r := by
    unfold RunningSum.decompose
    rw [assert_ok.2 (by rw [decide_eq_true_eq, ← hn]; omega), ok_then]
    simp only [hx, onKnown, hks, Except.map]
    rw [ok_then]
    simp only [transposeVec]
    rw [assert_ok.2 (by simpa using hkl)]
    simp only [ok_then, pure, Except.pure]
    rw [assert_ok.2 (by simpa using h8), ok_then, assert_ok.2 (by simp [sumCells_length, hkl]), ok_then]
    exact ⟨_, rfl⟩
  have hcopy : c.runningSum.copy 3 start 0 a true bits n = .ok ([.advice c.runningSum.z 0 a.value,
      .equal ⟨start, 0, .advice c.runningSum.z⟩ a.cell] ++ more, zs) := by
    unfold RunningSum.copy copyAdvice
    simp only
    rw [hdec]
    rfl
  obtain ⟨_, _, words, hw, hwords, hzs, hcalls⟩ := decompose_shape hdec
  obtain ⟨ks', hks', -, rfl⟩ := hwords x hx
  rw [hks] at hks'
  cases hks'
  have hlt : ∀ k ∈ ks, k < 8 := fun k hk => by simpa using hlt k hk
  have hsum : rest ks 0 = x.val := by
    rw [← Nat.mod_eq_of_lt hb, ← hsum, ofChunks_digits]
    simp [rest]
  have hzl : zs.length = n + 1 := by rw [hzs]; simp [sumCells_length, hkl]
  have hval : ∀ i (hi : i < zs.length), zs[i].value = some ((rest ks i : Nat) : Fp) := by
    intro i
    induction i with
    | zero =>
      intro hi
      simp only [hzs, List.getElem_cons_zero]
      rw [hsum, ZMod.natCast_zmod_val, hx]
    | succ i ih =>
      intro hi
      obtain ⟨y, h1, h2, h3⟩ := sumCells_value start c.runningSum.z 0 ((2 : Fp) ^ 3)⁻¹ ks 0 ⟨⟨start, 0, .advice c.runningSum.z⟩, a.value⟩ x hx i
        (by rw [← hzs]; omega) (by omega)
      have e := ih (by omega)
      have e' : y = ((rest ks i : Nat) : Fp) := by
        simp only [hzs] at e
        rw [h1] at e
        exact Option.some.inj e
      simp only [hzs]
      rw [h3, e', rest_step (by omega), List.getD_eq_getElem _ _ (by omega)]
      congr 1
      push_cast
      rw [add_sub_cancel_left, show (8 : Fp) = 2 ^ 3 by norm_num, mul_comm, ← mul_assoc, inv_mul_cancel₀ h8, one_mul]
  refine ⟨ks, _, zs, hcopy, hkl, hlt, hsum, hzl, hval, fun w hf hka => ?_⟩
  have hknown : ∀ i (hi : i < zs.length), zs[i].value = some (w start (.advice c.runningSum.z) ((0 + i : Nat) : Int)) := by
    intro i hi
    rcases i with _ | i
    · have := hf.1 c.runningSum.z 0 a.value (by simp)
      simp only [hzs, List.getElem_cons_zero]
      exact this
    · apply hf.1
      rw [List.mem_append, hcalls, List.mem_append, List.mem_append]
      right; left; right
      rw [List.mem_map]
      have hi' : i < (sumCells start c.runningSum.z 0 ((2 : Fp) ^ 3)⁻¹ 0 ⟨⟨start, 0, .advice c.runningSum.z⟩, a.value⟩ (ks.map fun (m : Nat) => some (m : Fp))).length := by
        rw [hzs] at hi; simpa using hi
      refine ⟨_, List.getElem_mem hi', ?_⟩
      rw [sumCells_cell]
      simp only [hzs, List.getElem_cons_succ]
      congr 1; omega
  have hrows : ∀ i ≤ n, w start (.advice c.runningSum.z) ((0 + i : Nat) : Int) = ((rest ks i : Nat) : Fp) := fun i hi =>
    Option.some.inj ((hknown i (by omega)).symm.trans (hval i (by omega)))
  refine ⟨?_, ?_, ?_, hrows⟩
  · intro k hk
    rcases List.mem_append.1 hk with hk | hk
    · simp only [List.mem_cons, List.not_mem_nil, or_false] at hk
      rcases hk with rfl | rfl
      · trivial
      · have h1 := hf.1 c.runningSum.z 0 a.value (by simp)
        exact Option.some.inj (h1.symm.trans hka)
    · rw [hcalls, List.mem_append, List.mem_append] at hk
      rcases hk with (hk | hk) | hk
      · obtain ⟨_, -, rfl⟩ := List.mem_map.1 hk; trivial
      · obtain ⟨_, -, rfl⟩ := List.mem_map.1 hk; trivial
      · rw [if_pos rfl] at hk
        obtain rfl := List.mem_singleton.1 hk
        rw [hzs, last_cell rfl]
        simp only [List.length_map, hkl, Enforced]
        have := hrows n le_rfl
        rw [← hkl, rest_last, hkl] at this
        simpa [Content.at] using this.symm
  · intro s o hm
    rcases List.mem_append.1 hm with hm | hm
    · simp at hm
    · rw [hcalls, List.mem_append, List.mem_append] at hm
      rcases hm with (hm | hm) | hm
      · obtain ⟨i, hi, e⟩ := List.mem_map.1 hm
        simp only [Call.enable.injEq] at e
        exact ⟨e.1.symm, i, List.mem_range.1 hi, e.2.symm⟩
      · obtain ⟨_, -, e⟩ := List.mem_map.1 hm
        cases e
      · rw [if_pos rfl] at hm
        cases List.mem_singleton.1 hm
  · intro i hi
    unfold Known
    rw [hknown i hi]
    congr 1
    have : zs[i].cell = ⟨start, 0 + i, .advice c.runningSum.z⟩ := by
      simp only [hzs]
      exact zs_cells rfl i _
    rw [this]
    rfl

/-- The sum of the windows of a running sum, by an honest prover. -/
theorem sum_good (hc : c.runningSum.z = c.window) (t : TableOf n B base) (hB : B ≠ 0) (hx : a.value = some x)
    (hb : x.val < 2 ^ bits) (hbits : bits ≤ 256) (hn : (bits + 3 - 1) / 3 = n) (h2 : 2 ≤ n) (hn' : n ≤ 85)
    (hne : ∀ k < 8, windowPoint n B (n - 1) k ≠ 0) :
    ∃ ks c0 zs c1 acc mulB, c.runningSum.copy 3 start 0 a true bits n = .ok (c0, zs) ∧
      MulFixed.sumWindows (q := vestaBase) zs = .ok (ks.map fun (d : Nat) => some (d : ZMod vestaBase)) ∧
      c.inner n start 0 base c.runningSum.qRangeCheck (ks.map fun (d : Nat) => some (d : ZMod vestaBase)) = .ok (c1, acc, mulB) ∧
      ks.length = n ∧ (∀ k ∈ ks, k < 8) ∧ rest ks 0 = x.val ∧ zs.length = n + 1 ∧
      (∀ i (hi : i < zs.length), zs[i].value = some ((rest ks i : Nat) : Fp)) ∧
      Valued acc ((∑ i ∈ Finset.range (n - 1), (ks.getD i 0 + 2) * 8 ^ i) • B) ∧
      Valued mulB (windowPoint n B (n - 1) (ks.getD (n - 1) 0)) ∧
      ∀ w, Follows w start (c0 ++ c1) → Known w a → (∀ k ∈ c0 ++ c1, Enforced w start k) ∧
        (∀ s o, Call.enable s o ∈ c0 ++ c1 → (s = c.addIncomplete.qAddIncomplete ∧ IncAt c start w o) ∨
          (s = c.runningSum.qRangeCheck ∧ ∀ sel, ∀ e ∈ rangeCheck (Verif.Gadget.Expr.advice c.runningSum.z 0 -
            .scaled (.advice c.runningSum.z 1) ((2 : Fp) ^ 3)) (2 ^ 3) :: c.coordsCheck (5 : Fp) (wordOf c),
            e.eval sel (w start) (o : Int) = 0)) ∧
        KnownPoint w acc ∧ KnownPoint w mulB ∧ ∀ i (hi : i < zs.length), Known w zs[i] := by
  obtain ⟨ks, c0, zs, h1, e1, e2, e3, e4, e5, g⟩ := copy_good (c := c) (start := start) hx hb hbits hn
  obtain ⟨c1, acc, mulB, h3, v1, v2, g'⟩ := inner_good (c := c) (region := start) (offset := 0) (toggle := c.runningSum.qRangeCheck) t hB
    h2 hn' e1 e2 hne
  have hstep : ∀ i (hi : i < ks.length), ((rest ks i : Nat) : Fp) - ((rest ks (i + 1) : Nat) : Fp) * 8 = ((ks.getD i 0 : Nat) : Fp) := by
    intro i hi
    rw [rest_step hi]
    push_cast
    ring
  refine ⟨ks, c0, zs, c1, acc, mulB, h1, ?_, h3, e1, e2, e3, e4, e5, v1, v2, fun w hf hka => ?_⟩
  · refine sumWindows_digits ks zs (fun i => ((rest ks i : Nat) : Fp)) e2 (by omega) e5 fun i hi => ?_
    rw [hstep i hi, List.getD_eq_getElem _ _ hi]
  · obtain ⟨a1, a2, a3, a4⟩ := g w (follows_mono hf (by simp +contextual)) hka
    obtain ⟨b1, b2, b3, b4, b5⟩ := g' w (follows_mono hf (by simp +contextual))
    refine ⟨fun k hk => (List.mem_append.1 hk).elim (a1 k) (b1 k), fun s o ho => ?_, b3, b4, a3⟩
    have hen : (s = c.addIncomplete.qAddIncomplete ∧ IncAt c start w o) ∨ (s = c.runningSum.qRangeCheck ∧ ∃ i < n, o = 0 + i) :=
      (List.mem_append.1 ho).elim (fun h => Or.inr (a2 s o h)) (b2 s o)
    rcases hen with h | ⟨hs, i, hi, rfl⟩
    · exact Or.inl h
    · refine Or.inr ⟨hs, fun sel e he => ?_⟩
      have r := a4 i (by omega)
      have r' := a4 (i + 1) (by omega)
      have hr : ((0 + i : Nat) : Int) + 1 = ((0 + (i + 1) : Nat) : Int) := by push_cast; ring
      rcases List.mem_cons.1 he with rfl | he
      · rw [eval_rangeCheck _ _ _ _ (by norm_num)]
        refine ⟨ks.getD i 0, getD_lt e2 i, ?_⟩
        simp only [eval_sub, eval_advice, eval_scaled, add_zero]
        rw [hr, r, r', ← hstep i (by omega)]
        norm_num
      · refine b5 sel (wordOf c) i hi ?_ e he
        simp only [wordOf, eval_sub, eval_advice, eval_scaled, add_zero]
        rw [hr, ← hc, r, r', hstep i (by omega)]

end sum

section short

variable {c : MulShort} {start : Nat} {base : FixedBase pallasBase} {B : Pt (5 : Fp)} {magnitude sign : Assigned Fp}
  {table : Nat → List Fp} {chip : Chip Fp}

theorem shortCalls_enable {sign z21 : Assigned Fp} {acc mulB : EccPoint Fp} {y : Option Fp} {s : Selector} {o : Nat}
    (h : Call.enable s o ∈ shortCalls c start sign z21 acc mulB y) :
    (Call.enable s o ∈ (c.sup.add.assign (start + 1) mulB acc 0).1 ∧ s = c.sup.add.qAdd ∧ o = 0) ∨ (s = c.qShort ∧ o = 1) := by
  unfold shortCalls at h
  rcases List.mem_append.1 h with h | h
  · rcases List.mem_append.1 h with h | h
    · rcases List.mem_append.1 h with h | h
      · rcases List.mem_append.1 h with h | h
        · exact Or.inl ⟨h, add_enable.1 h⟩
        · simp [copyAdvice] at h
      · simp [copyAdvice] at h
    · exact Or.inr (by simpa using h)
  · simp at h

/-- Multiplication by a signed number of 64 bits, by an honest prover. -/
theorem short_complete (hc : c.sup.runningSum.z = c.sup.window) (hchip : c.chip (5 : Fp) = .ok chip)
    (hd : [c.qShort, c.sup.runningSum.qRangeCheck, c.sup.add.qAdd, c.sup.addIncomplete.qAddIncomplete].Nodup)
    (t : TableOf 22 B base) (hB : B ≠ 0) {m s : Fp} (hm : magnitude.value = some m) (hs : sign.value = some s)
    (hm' : m.val < 2 ^ 64) (hs' : s = 1 ∨ s = -1) :
    ∃ regions out zs, c.assign (q := vestaBase) start magnitude sign base = .ok (regions, out, zs) ∧
      ∀ w, FollowsAll w start regions → Known w magnitude → Known w sign → SatAll chip table w start regions ∧ KnownPoint w out ∧
        Holds w out (if s = -1 then -(m.val • B) else m.val • B) := by
  obtain ⟨ks, c0, zs, c1, acc, mulB, h1, h2, h3, e1, e2, e3, e4, e5, v1, v2, g⟩ := sum_good (c := c.sup) (start := start) (n := 22) hc t hB hm hm'
    (by norm_num) (by norm_num) (by norm_num) (by norm_num) (last_short hB)
  have h21 : 21 < zs.length := by omega
  have hz : zs[21]? = some zs[21] := List.getElem?_eq_getElem h21
  have hk21 : rest ks 21 < 2 := by
    rw [rest_div e2 21 (by omega), e3]
    apply Nat.div_lt_of_lt_mul
    norm_num
    norm_num at hm'
    exact hm'
  refine ⟨[c0 ++ c1, shortCalls c start sign zs[21] acc mulB (signed sign.value (c.sup.add.assign (start + 1) mulB acc 0).2.y.value)],
    ⟨(c.sup.add.assign (start + 1) mulB acc 0).2.x, ⟨⟨start + 1, 1, .advice c.sup.add.yP⟩,
        signed sign.value (c.sup.add.assign (start + 1) mulB acc 0).2.y.value⟩⟩, zs, ?_, ?_⟩
  · unfold MulShort.assign
    rw [h1, ok_then]
    simp only
    rw [h2, ok_then, h3, ok_then]
    simp only [hz]
    rfl
  · intro w hf k1 k2
    have f0 : Follows w start (c0 ++ c1) := hf 0 (by simp)
    have f1 : Follows w (start + 1) (shortCalls c start sign zs[21] acc mulB
      (signed sign.value (c.sup.add.assign (start + 1) mulB acc 0).2.y.value)) := hf 1 (by simp)
    obtain ⟨a1, a2, a3, a4, a5⟩ := g w f0 k1
    obtain ⟨⟨b1, b1'⟩, b2, b3⟩ := add_good usable_pallas (follows_mono f1 (shortCalls_add _ _ _ _ _)) a4 a3 (v2.holds a4) (v1.holds a3)
    have hws := windows_sum (n := 22) (B := B) (by norm_num) (fun i => ks.getD i 0)
    beta_reduce at hws
    have hsv : ∑ i ∈ Finset.range 22, ks.getD i 0 * 8 ^ i = m.val := by
      rw [← e3, rest, e1]
      simp only [Nat.sub_zero, Nat.zero_add]
    rw [hws, hsv] at b3
    have hsx : w.at sign.cell = s := Option.some.inj (k2.symm.trans hs)
    have q1 : w (start + 1) (.advice c.sup.window) ((1 : Nat) : Int) = s := by
      refine follows_at f1 ?_
      rw [← hs]
      simp [shortCalls, copyAdvice]
    have q2 : w (start + 1) (.advice c.sup.u) ((1 : Nat) : Int) = ((rest ks 21 : Nat) : Fp) := by
      refine follows_at f1 ?_
      rw [← e5 21 h21]
      simp [shortCalls, copyAdvice]
    have hyv : (c.sup.add.assign (start + 1) mulB acc 0).2.y.value = some (w.at (c.sup.add.assign (start + 1) mulB acc 0).2.y.cell) := b2.2
    have hyq : w.at (c.sup.add.assign (start + 1) mulB acc 0).2.y.cell = w (start + 1) (.advice c.sup.add.yQR) ((1 : Nat) : Int) := rfl
    have hyc : w.at (c.sup.add.assign (start + 1) mulB acc 0).2.y.cell = (coords (m.val • B)).2 := congrArg Prod.snd b3
    have hxc : w.at (c.sup.add.assign (start + 1) mulB acc 0).2.x.cell = (coords (m.val • B)).1 := congrArg Prod.fst b3
    have hsig : signed sign.value (c.sup.add.assign (start + 1) mulB acc 0).2.y.value =
        some (if s = -1 then -(coords (m.val • B)).2 else (coords (m.val • B)).2) := by
      rw [hyv, hs, hyc]
      rfl
    have q3 : w (start + 1) (.advice c.sup.add.yP) ((1 : Nat) : Int) = if s = -1 then -(coords (m.val • B)).2 else (coords (m.val • B)).2 := by
      refine follows_at f1 ?_
      rw [← hsig]
      exact List.mem_append_right _ (List.mem_singleton.2 rfl)
    obtain ⟨-, l1, -, l2⟩ := short_gates hchip
    simp only [List.nodup_cons, List.mem_cons, List.not_mem_nil, or_false, not_or] at hd
    refine ⟨?_, ⟨b2.1, ?_⟩, ?_⟩
    · intro i hi
      have hi' : i = 0 ∨ i = 1 := by simp at hi; omega
      rcases hi' with rfl | rfl
      · refine ⟨a1, gates_of fun g hg e he o ho => ?_, fun l hl => by rw [l1] at hl; cases hl⟩
        have hen := a2 _ _ ho
        rcases l2 g hg with rfl | rfl | rfl | h | rfl
        · rcases hen with ⟨h, -⟩ | ⟨-, h⟩
          · exact absurd h hd.2.1.2
          · exact h _ e (by rw [List.mem_singleton.1 he]; exact List.mem_cons_self)
        · rcases hen with ⟨h, -⟩ | ⟨-, h⟩
          · exact absurd h hd.2.1.2
          · exact h _ e (List.mem_cons_of_mem _ he)
        · rcases hen with ⟨h, -⟩ | ⟨h, -⟩
          · exact absurd h hd.2.2.1
          · exact absurd h.symm hd.2.1.1
        · rw [inc_selector h] at hen
          rcases hen with ⟨-, h'⟩ | ⟨h', -⟩
          · exact h' _ g h e he
          · exact absurd h'.symm hd.2.1.2
        · rcases hen with ⟨h, -⟩ | ⟨h, -⟩
          · exact absurd h hd.1.2.2
          · exact absurd h hd.1.1
      · refine ⟨?_, gates_of fun g hg e he o ho => ?_, fun l hl => by rw [l1] at hl; cases hl⟩
        · intro k hk
          change k ∈ shortCalls c start sign zs[21] acc mulB _ at hk
          rcases List.mem_append.1 hk with hk | hk
          · rcases List.mem_append.1 hk with hk | hk
            · rcases List.mem_append.1 hk with hk | hk
              · rcases List.mem_append.1 hk with hk | hk
                · exact b1 k hk
                · simp only [copyAdvice, List.mem_cons, List.not_mem_nil, or_false] at hk
                  rcases hk with rfl | rfl
                  · trivial
                  · exact q1.trans hsx.symm
              · simp only [copyAdvice, List.mem_cons, List.not_mem_nil, or_false] at hk
                rcases hk with rfl | rfl
                · trivial
                · exact q2.trans (Option.some.inj ((e5 21 h21).symm.trans (a5 21 h21)))
            · obtain rfl := List.mem_singleton.1 hk; trivial
          · obtain rfl := List.mem_singleton.1 hk; trivial
        · have hen := shortCalls_enable ho
          rcases l2 g hg with rfl | rfl | rfl | h | rfl
          · rcases hen with ⟨-, h, -⟩ | ⟨h, -⟩
            · exact absurd h hd.2.1.1
            · exact absurd h.symm hd.1.1
          · rcases hen with ⟨-, h, -⟩ | ⟨h, -⟩
            · exact absurd h hd.2.1.1
            · exact absurd h.symm hd.1.1
          · rcases hen with ⟨h, -, rfl⟩ | ⟨h, -⟩
            · obtain ⟨es, m1, m2⟩ := b1' _ _ h
              have : es = c.sup.add.polys := by
                simp only [AddComplete.chip, List.mem_singleton, Prod.mk.injEq] at m1
                exact m1.2
              subst this
              exact m2 _ e he
            · exact absurd h.symm hd.1.2.1
          · rw [inc_selector h] at hen
            rcases hen with ⟨-, h, -⟩ | ⟨h, -⟩
            · exact absurd h.symm hd.2.2.1
            · exact absurd h.symm hd.1.2.2
          · rcases hen with ⟨-, h, -⟩ | ⟨-, rfl⟩
            · exact absurd h hd.1.2.1
            · rw [hyc] at hyq
              simp only [shortPolys, List.mem_cons, List.not_mem_nil, or_false] at he
              rcases he with rfl | rfl | rfl | rfl
              · unfold boolCheck
                rw [eval_rangeCheck _ _ _ _ (by norm_num)]
                exact ⟨rest ks 21, hk21, by rw [eval_advice, add_zero, q2]⟩
              · simp only [eval_sub, eval_square, eval_advice, eval_const, add_zero, q1]
                rcases hs' with rfl | rfl <;> ring
              · simp only [eval_sub, eval_add, eval_mul, eval_advice, add_zero, q3, ← hyq]
                split <;> ring
              · simp only [eval_sub, eval_mul, eval_advice, add_zero, q1, q3, ← hyq]
                rcases hs' with rfl | rfl
                · rw [if_neg (by decide +kernel)]; ring
                · rw [if_pos rfl]; ring
    · show signed sign.value (c.sup.add.assign (start + 1) mulB acc 0).2.y.value = some (w (start + 1) (.advice c.sup.add.yP) ((1 : Nat) : Int))
      rw [q3, hsig]
    · have h1 : w.at (c.sup.add.assign (start + 1) mulB acc 0).2.x.cell = (coords (if s = -1 then -(m.val • B) else m.val • B)).1 := by
        rw [hxc]
        split
        · rw [coords_neg]
        · rfl
      refine Prod.ext h1 ?_
      show w (start + 1) (.advice c.sup.add.yP) ((1 : Nat) : Int) = _
      rw [q3]
      split
      · rw [coords_neg]
      · rfl

end short

end Verif.Lemmas.Ecc
