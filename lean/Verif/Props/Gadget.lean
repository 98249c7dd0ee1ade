import Verif.Lemmas.GadgetLookup
import Verif.Model.Fr

/-!
C100 to C103: the utility gadgets of `halo2_gadgets`.
-/

namespace Verif.Props

open Verif.FloorPlanner (Call)
open Verif.Gadget Verif.Spec.Gadget Verif.Lemmas.Gadget

/-! C100: helpers. -/

/-- The polynomial of `range_check` vanishes exactly where the word is one of `0, ..., range - 1`. -/
theorem C100_range_check {F : Type} [Field F] (sel : Selector → Int → Bool) (w : Col → Int → F) (row : Int)
    (word : Verif.Gadget.Expr F) (range : Nat) (hr : 0 < range) :
    (rangeCheck word range).eval sel w row = 0 ↔ ∃ i : Nat, i < range ∧ word.eval sel w row = i :=
  eval_rangeCheck sel w row word hr

/-- `bool_check` vanishes exactly at 0 and 1, and `ternary` selects by a bit. -/
theorem C100_bool {F : Type} [Field F] (sel : Selector → Int → Bool) (w : Col → Int → F) (row : Int)
    (a b c : Verif.Gadget.Expr F) :
    ((boolCheck a).eval sel w row = 0 ↔ a.eval sel w row = 0 ∨ a.eval sel w row = 1) ∧
    (a.eval sel w row = 1 → (ternary a b c).eval sel w row = b.eval sel w row) ∧
    (a.eval sel w row = 0 → (ternary a b c).eval sel w row = c.eval sel w row) := by
  refine ⟨eval_boolCheck sel w row a, fun h => ?_, fun h => ?_⟩ <;> rw [eval_ternary, h] <;> ring

/-- `bitrange_subset` is the number made of the bits of the range; it panics exactly where the range does not
lie within the bits of the modulus. -/
theorem C100_bitrange {p : Nat} (hp : p < 2 ^ 256) (x : ZMod p) (start stop : Nat) :
    bitrangeSubset x start stop =
      if start ≤ stop ∧ stop ≤ p.size then .ok ((x.val / 2 ^ start % 2 ^ (stop - start) : Nat) : ZMod p)
      else .error .panic := by
  split
  · rename_i h
    exact bitrangeSubset_ok hp x h.1 h.2
  · rename_i h
    unfold bitrangeSubset
    by_cases h1 : stop ≤ p.size
    · have h2 : ¬ start ≤ stop := fun h2 => h ⟨h2, h1⟩
      simp only [h1, h2, decide_true, decide_false]
      rfl
    · simp only [h1, decide_false]
      rfl

/-- `decompose_word` cuts the low bits of a word into windows: as many as are needed, each of the given number of
bits, with the word put together from them; it panics exactly where the word has more than 256 bits or the windows do
not have 1 to 8. -/
theorem C100_decompose {p : Nat} (x : ZMod p) (wordBits windowBits : Nat) :
    (∀ ks, decomposeWord x wordBits windowBits = .ok ks →
      ks.length = (wordBits + windowBits - 1) / windowBits ∧ (∀ k ∈ ks, k < 2 ^ windowBits) ∧
      ks.foldr (fun k acc => k + 2 ^ windowBits * acc) 0 = x.val % 2 ^ wordBits) ∧
    ((∃ ks, decomposeWord x wordBits windowBits = .ok ks) ↔
      0 < windowBits ∧ windowBits ≤ 8 ∧ wordBits ≤ 256) := by
  have hfold : ∀ ks : List Nat, ks.foldr (fun k acc => k + 2 ^ windowBits * acc) 0 = ofChunks windowBits ks := by
    intro ks
    induction ks with
    | nil => rfl
    | cons k ks ih => rw [List.foldr_cons, ih]; rfl
  have hiff : (∃ ks, decomposeWord x wordBits windowBits = .ok ks) ↔
      0 < windowBits ∧ windowBits ≤ 8 ∧ wordBits ≤ 256 := by
    constructor
    · rintro ⟨ks, h⟩
      refine ⟨?_, ?_, ?_⟩
      · unfold decomposeWord at h
        obtain ⟨_, h1, h⟩ := bind_ok h
        obtain ⟨_, h2, h⟩ := bind_ok h
        simpa using assert_ok.1 h2
      · unfold decomposeWord at h
        obtain ⟨_, h1, h⟩ := bind_ok h
        simpa using assert_ok.1 h1
      · by_contra hc
        rw [decomposeWord_fails x (by omega)] at h
        cases h
    · rintro ⟨h1, h2, h3⟩
      obtain ⟨ks, h, _⟩ := decomposeWord_ok x h1 h2 h3
      exact ⟨ks, h⟩
  refine ⟨fun ks h => ?_, hiff⟩
  obtain ⟨h1, h2, h3⟩ := hiff.1 ⟨ks, h⟩
  obtain ⟨ks', h', e1, e2, e3⟩ := decomposeWord_ok x h1 h2 h3
  rw [h] at h'
  cases h'
  exact ⟨e1, e2, by rw [hfold]; exact e3⟩

/-- `lebs2ip` and `i2lebsp` are inverse to each other. -/
theorem C100_lebs (bits : List Bool) (n x : Nat) (hb : bits.length ≤ 64) (hn : n ≤ 64) :
    (∃ v, lebs2ip bits = .ok v ∧ v < 2 ^ bits.length ∧ i2lebsp bits.length v = .ok bits) ∧
    (∃ l, i2lebsp n x = .ok l ∧ l.length = n ∧ lebs2ip l = .ok (x % 2 ^ n)) := by
  have hi : ∀ m y, m ≤ 64 → i2lebsp m y = .ok ((List.range m).map fun i => y.testBit i) := by
    intro m y hm
    unfold i2lebsp
    rw [assert_ok.2 (by simpa using hm)]
    rfl
  refine ⟨⟨ofBits bits, lebs2ip_ok hb, ofBits_lt bits, ?_⟩, ?_⟩
  · rw [hi _ _ hb]
    congr 1
    apply ofBits_inj (by simp)
    rw [List.range_eq_range', ofBits_testBit, pow_zero, Nat.div_one, Nat.mod_eq_of_lt (ofBits_lt bits)]
  · refine ⟨_, hi n x hn, by simp, ?_⟩
    rw [lebs2ip_ok (by simpa using hn), List.range_eq_range', ofBits_testBit]
    simp

/-- Words and ranges: the bits 2 to 5 of 0b1101100 are 0b011; 100 in windows of 3 bits; the bits of 6. -/
example : bitrangeSubset (108 : ZMod 257) 2 5 = .ok 3 ∧ decomposeWord (100 : ZMod 257) 8 3 = .ok [4, 4, 1] ∧
    i2lebsp 4 6 = .ok [false, true, true, false] ∧ lebs2ip [false, true, true, false] = .ok 6 := by
  refine ⟨?_, ?_, ?_, ?_⟩ <;> decide +kernel

/-- A range check of three values accepts 2 and not 3. -/
example : (rangeCheck (Verif.Gadget.Expr.const (2 : ℚ)) 3).eval (fun _ _ => true) (fun _ _ => 0) 0 = 0 ∧
    (rangeCheck (Verif.Gadget.Expr.const (3 : ℚ)) 3).eval (fun _ _ => true) (fun _ _ => 0) 0 ≠ 0 := by
  constructor
  · rw [C100_range_check _ _ _ _ 3 (by norm_num)]
    exact ⟨2, by norm_num, by simp⟩
  · rw [Ne, C100_range_check _ _ _ _ 3 (by norm_num)]
    rintro ⟨i, hi, h⟩
    simp only [eval_const] at h
    norm_cast at h
    omega

/-! C101: the conditional swap. -/

/-- Whatever a prover puts into the cells: if the constraints hold, the outputs are the input cell and some other
value, in this order or the other. -/
theorem C101_sound {F : Type} [Field F] (c : CondSwap) (region : Nat) (a : Assigned F) (b : Option F)
    (swap : Option Bool) (table : Nat → List F) (w : Content F)
    (h : Sat c.chip table w region (c.run region (a, b) swap).1) :
    ∃ other : F, (w.at (c.run region (a, b) swap).2.1.cell = w.at a.cell ∧
        w.at (c.run region (a, b) swap).2.2.cell = other) ∨
      (w.at (c.run region (a, b) swap).2.1.cell = other ∧
        w.at (c.run region (a, b) swap).2.2.cell = w.at a.cell) := by
  have hen : Call.enable c.qSwap 0 ∈ (c.run region (a, b) swap).1 := by simp [CondSwap.run]
  have hg : ∀ e ∈ ((c.chip : Chip F).gates.head?.map (·.2)).getD [], e.eval (enabled (c.run region (a, b) swap).1)
      (w region) (0 : Nat) = 0 := by
    intro e he
    exact sat_gate h (s := c.qSwap) (List.mem_singleton.2 rfl) he hen
  have h1 := hg _ (List.mem_cons_self ..)
  have h2 := hg _ (List.mem_cons_of_mem _ (List.mem_cons_self ..))
  have h3 := hg _ (List.mem_cons_of_mem _ (List.mem_cons_of_mem _ (List.mem_cons_self ..)))
  rw [eval_boolCheck] at h3
  simp only [eval_sub, eval_ternary, eval_advice, Nat.cast_zero, add_zero] at h1 h2 h3
  have hcopy : Enforced w region (Call.equal (⟨region, 0, .advice c.a⟩ : Cell) a.cell) := by
    apply h.enforced
    simp [CondSwap.run, copyAdvice]
  have ha : w region (.advice c.a) 0 = w.at a.cell := hcopy
  refine ⟨w region (.advice c.b) 0, ?_⟩
  show (w region (.advice c.aSwapped) 0 = w.at a.cell ∧ w region (.advice c.bSwapped) 0 = _) ∨
    (w region (.advice c.aSwapped) 0 = _ ∧ w region (.advice c.bSwapped) 0 = w.at a.cell)
  rcases h3 with h3 | h3 <;> rw [h3] at h1 h2
  · left
    exact ⟨by rw [← ha]; linear_combination h1, by linear_combination h2⟩
  · right
    exact ⟨by linear_combination h1, by rw [← ha]; linear_combination h2⟩

/-- An honest prover satisfies the constraints, and the outputs are the pair, swapped if the flag is set. -/
theorem C101_complete {F : Type} [Field F] (c : CondSwap) (region : Nat) (a : Assigned F) (b : F)
    (swap : Bool) (table : Nat → List F) (w : Content F) (ha : Known w a)
    (hf : Follows w region (c.run region (a, some b) (some swap)).1) :
    Sat c.chip table w region (c.run region (a, some b) (some swap)).1 ∧
    w.at (c.run region (a, some b) (some swap)).2.1.cell = (if swap then b else w.at a.cell) ∧
    w.at (c.run region (a, some b) (some swap)).2.2.cell = (if swap then w.at a.cell else b) := by
  have hv : a.value = some (w.at a.cell) := ha
  have hfa := hf.1
  simp only [CondSwap.run, copyAdvice, assignAdvice, List.cons_append, List.nil_append, hv] at hfa
  have e1 : w.at a.cell = w region (.advice c.a) 0 := by
    have := hfa c.a 0 _ (by simp only [List.mem_cons]; exact Or.inr (Or.inl rfl))
    simpa using this
  have e2 : b = w region (.advice c.b) 0 := by
    have := hfa c.b 0 (some b) (by simp)
    simpa using this
  have e3 : (if swap then (1 : F) else 0) = w region (.advice c.swap) 0 := by
    have := hfa c.swap 0 (some (if swap then (1 : F) else 0)) (by simp)
    simpa using this
  have e4 : (if swap then b else w.at a.cell) = w region (.advice c.aSwapped) 0 := by
    have := hfa c.aSwapped 0 (some (if swap then b else w.at a.cell)) (by simp [bind, Option.bind])
    simpa using this
  have e5 : (if swap then w.at a.cell else b) = w region (.advice c.bSwapped) 0 := by
    have := hfa c.bSwapped 0 (some (if swap then w.at a.cell else b)) (by simp [bind, Option.bind])
    simpa using this
  refine ⟨⟨?_, gates_of ?_, by simp [CondSwap.chip]⟩, e4.symm, e5.symm⟩
  · intro x hx
    simp only [CondSwap.run, copyAdvice, assignAdvice, List.cons_append, List.nil_append, List.mem_cons,
      List.not_mem_nil, or_false] at hx
    rcases hx with rfl | rfl | rfl | rfl | rfl | rfl | rfl <;> try trivial
    exact e1.symm
  · intro g hg e he o ho
    obtain rfl := List.mem_singleton.1 hg
    obtain rfl : o = 0 := by
      simp only [CondSwap.run, copyAdvice, assignAdvice, List.cons_append, List.nil_append, List.mem_cons,
        List.not_mem_nil, or_false, reduceCtorEq, Call.enable.injEq] at ho
      exact ho.2
    simp only [List.mem_cons, List.not_mem_nil, or_false] at he
    rcases he with rfl | rfl | rfl
    · simp only [eval_sub, eval_ternary, eval_advice, Nat.cast_zero, add_zero, ← e1, ← e2, ← e3, ← e4]
      cases swap <;> simp
    · simp only [eval_sub, eval_ternary, eval_advice, Nat.cast_zero, add_zero, ← e1, ← e2, ← e3, ← e5]
      cases swap <;> simp
    · rw [eval_boolCheck]
      simp only [eval_advice, Nat.cast_zero, add_zero, ← e3]
      cases swap <;> simp

/-- What is called does not depend on the witness, and the gate reads no cell that is not assigned. -/
theorem C101_keys {F : Type} [Field F] (c : CondSwap) (region : Nat) (a : Assigned F) (v b b' : Option F)
    (swap swap' : Option Bool) :
    List.Forall₂ SameCall (c.run region (a, b) swap).1 (c.run region (⟨a.cell, v⟩, b') swap').1 ∧
    Covered c.chip (c.run region (a, b) swap).1 := by
  constructor
  · simp only [CondSwap.run, copyAdvice, assignAdvice, List.cons_append, List.nil_append]
    repeat' first
      | exact List.Forall₂.nil
      | refine List.Forall₂.cons ?_ ?_
      | exact SameCall.advice _ _ _ _
      | exact SameCall.refl _
  · intro g hg row hrow e he q hq
    obtain rfl := List.mem_singleton.1 hg
    obtain ⟨o, ho, rfl⟩ := enabled_iff.1 hrow
    obtain rfl : o = 0 := by
      simp only [CondSwap.run, copyAdvice, assignAdvice, List.cons_append, List.nil_append, List.mem_cons,
        List.not_mem_nil, or_false, reduceCtorEq, Call.enable.injEq] at ho
      exact ho.2
    have hq' : q = (.advice c.a, 0) ∨ q = (.advice c.b, 0) ∨ q = (.advice c.aSwapped, 0) ∨ q = (.advice c.bSwapped, 0) ∨
        q = (.advice c.swap, 0) := by
      simp only [List.mem_cons, List.not_mem_nil, or_false] at he
      rcases he with rfl | rfl | rfl
      · simp [queries_ternary] at hq; tauto
      · simp [queries_ternary] at hq; tauto
      · have := queries_rangeCheck hq
        simp at this; tauto
    left
    rcases hq' with rfl | rfl | rfl | rfl | rfl
    · exact ⟨c.a, 0, a.value, by simp [CondSwap.run, copyAdvice], rfl, rfl⟩
    · exact ⟨c.b, 0, b, by simp [CondSwap.run, assignAdvice], rfl, rfl⟩
    · exact ⟨c.aSwapped, 0, _, by
        simp only [CondSwap.run, copyAdvice, assignAdvice, List.cons_append, List.nil_append, List.mem_cons]
        exact Or.inr (Or.inr (Or.inr (Or.inr (Or.inr (Or.inl rfl))))), rfl, rfl⟩
    · exact ⟨c.bSwapped, 0, _, by
        simp only [CondSwap.run, copyAdvice, assignAdvice, List.cons_append, List.nil_append, List.mem_cons]
        exact Or.inr (Or.inr (Or.inr (Or.inr (Or.inr (Or.inr (Or.inl rfl)))))), rfl, rfl⟩
    · exact ⟨c.swap, 0, _, by
        simp only [CondSwap.run, copyAdvice, assignAdvice, List.cons_append, List.nil_append, List.mem_cons]
        exact Or.inr (Or.inr (Or.inr (Or.inr (Or.inl rfl)))), rfl, rfl⟩

/-- 7 and 9 swapped, in columns 0 to 4 of region 1, with 7 in region 0. -/
example : ∃ w : Content ℚ, w.at ⟨0, 0, .advice 0⟩ = 7 ∧
    Sat (CondSwap.chip ⟨⟨0, true⟩, 0, 1, 2, 3, 4⟩) (fun _ => []) w 1
      (CondSwap.run ⟨⟨0, true⟩, 0, 1, 2, 3, 4⟩ 1 (⟨⟨0, 0, .advice 0⟩, some 7⟩, some 9) (some true)).1 ∧
    w.at ⟨1, 0, .advice 2⟩ = 9 ∧ w.at ⟨1, 0, .advice 3⟩ = 7 := by
  refine ⟨fun _ col _ => match col with
    | .advice 0 => 7 | .advice 1 => 9 | .advice 2 => 9 | .advice 3 => 7 | .advice 4 => 1 | _ => 0, rfl, ?_, rfl, rfl⟩
  refine (C101_complete _ 1 ⟨⟨0, 0, .advice 0⟩, some 7⟩ 9 true _ _ (by rfl) ⟨?_, ?_, ?_⟩).1
  · intro col o v h
    simp only [CondSwap.run, copyAdvice, assignAdvice, List.cons_append, List.nil_append, List.mem_cons, reduceCtorEq,
      Call.advice.injEq, List.not_mem_nil, or_false, false_or] at h
    rcases h with ⟨rfl, rfl, rfl⟩ | ⟨rfl, rfl, rfl⟩ | ⟨rfl, rfl, rfl⟩ | ⟨rfl, rfl, rfl⟩ | ⟨rfl, rfl, rfl⟩ <;> rfl
  · intro col o v h
    simp [CondSwap.run, copyAdvice, assignAdvice] at h
  · intro col o v h
    simp [CondSwap.run, copyAdvice, assignAdvice] at h

/-! C102: running sums with small windows. -/

section

variable {p : Nat} [Fact p.Prime]

/-- Whatever a prover puts into the cells: if the constraints of a strict decomposition into windows that fit into
the field hold, the number in the cell has no more bits than the windows, and the cells returned contain its
quotients: nothing but the number's own windows can be shown. -/
theorem C102_sound_partial (c : RunningSum) (k region offset : Nat) (a : Assigned (ZMod p)) (wordBits n : Nat)
    (chip : Chip (ZMod p)) (hchip : c.chip k = .ok chip) (table : Nat → List (ZMod p)) (w : Content (ZMod p))
    (calls : Calls (ZMod p)) (zs : List (Assigned (ZMod p))) (hfit : 2 ^ (k * n) ≤ p)
    (h : c.copy k region offset a true wordBits n = .ok (calls, zs)) (hs : Sat chip table w region calls) :
    zs.length = n + 1 ∧ (w.at a.cell).val < 2 ^ (k * n) ∧
    ∀ i (hi : i < zs.length), (w.at zs[i].cell).val = (w.at a.cell).val / 2 ^ (k * i) := by
  obtain ⟨more, h1, rfl⟩ := copy_split h
  obtain ⟨e1, e2, e3, e4⟩ := decompose_sound hchip rfl h1 hs
  have hcopy : w region (.advice c.z) (offset : Int) = w.at a.cell := sat_copy hs (a := ⟨region, offset, .advice c.z⟩) (by simp)
  obtain ⟨f1, f2⟩ := sum_sound n (fun i => w region (.advice c.z) ((offset + i : Nat) : Int)) e3 (e4 rfl) hfit
  simp only [add_zero, hcopy] at f1 f2
  refine ⟨e1, f1, fun i hi => ?_⟩
  rw [e2 i hi]
  exact f2 i (by omega)

/-- Without `strict`, the number is made of windows and what is left over. -/
theorem C102_open (c : RunningSum) (k region offset : Nat) (a : Assigned (ZMod p)) (strict : Bool) (wordBits n : Nat)
    (chip : Chip (ZMod p)) (hchip : c.chip k = .ok chip) (table : Nat → List (ZMod p)) (w : Content (ZMod p))
    (calls : Calls (ZMod p)) (zs : List (Assigned (ZMod p)))
    (h : c.copy k region offset a strict wordBits n = .ok (calls, zs)) (hs : Sat chip table w region calls) :
    ∃ hl : n < zs.length, ∃ m : Nat, m < 2 ^ (k * n) ∧ w.at a.cell = m + 2 ^ (k * n) * w.at zs[n].cell := by
  obtain ⟨more, h1, rfl⟩ := copy_split h
  obtain ⟨e1, e2, e3, _⟩ := decompose_sound hchip rfl h1 hs
  have hcopy : w region (.advice c.z) (offset : Int) = w.at a.cell := sat_copy hs (a := ⟨region, offset, .advice c.z⟩) (by simp)
  obtain ⟨m, hm, f⟩ := sum_open n (fun i => w region (.advice c.z) ((offset + i : Nat) : Int)) e3
  refine ⟨by omega, m, hm, ?_⟩
  rw [e2 n (by omega), ← hcopy]
  simpa using f

/-- A known number is decomposed exactly when there are as many windows as its bits need and no more than 256 bits;
when keys are generated, fewer windows are taken too. -/
theorem C102_runs (c : RunningSum) (k region offset : Nat) (cell : Cell) (x : ZMod p) (strict : Bool)
    (wordBits n : Nat) (hk : 0 < k) (hk3 : k ≤ 3) (hp : p ≠ 2) :
    ((∃ r, c.copy k region offset ⟨cell, some x⟩ strict wordBits n = .ok r) ↔
      wordBits ≤ 256 ∧ n = (wordBits + k - 1) / k) ∧
    ((∃ r, c.copy k region offset (⟨cell, none⟩ : Assigned (ZMod p)) strict wordBits n = .ok r) ↔
      n ≤ (wordBits + k - 1) / k) := by
  have h2 : (2 : ZMod p) ^ k ≠ 0 := by
    apply pow_ne_zero
    intro h
    have h' : ((2 : Nat) : ZMod p) = 0 := by exact_mod_cast h
    rw [ZMod.natCast_eq_zero_iff] at h'
    exact hp ((Nat.prime_dvd_prime_iff_eq Fact.out Nat.prime_two).1 h')
  have hceil : k * n < wordBits + k ↔ n ≤ (wordBits + k - 1) / k := by
    rw [Nat.le_div_iff_mul_le hk, mul_comm]
    omega
  have hrun : ∀ (v : Option (ZMod p)) (words : List (Option Nat)), k * n < wordBits + k →
      (onKnown v (fun x => decomposeWord x wordBits k) >>= fun d => transposeVec d n) = .ok words →
      ∃ r, c.copy k region offset ⟨cell, v⟩ strict wordBits n = .ok r := by
    intro v words h1 h3
    obtain ⟨d, h4, h5⟩ := bind_ok h3
    have hd : ∃ r, c.decompose k region offset ⟨⟨region, offset, .advice c.z⟩, v⟩ strict wordBits n = .ok r := by
      unfold RunningSum.decompose
      refine ok_bind (assert_ok.2 (by simpa using h1)) (ok_bind h4 (ok_bind h5
        (ok_bind (assert_ok.2 (by simpa using h2)) (ok_bind (assert_ok.2 ?_) ⟨_, rfl⟩))))
      simp [sumCells_length, transposeVec_length h5]
    obtain ⟨r, hd⟩ := hd
    unfold RunningSum.copy copyAdvice
    exact ok_bind hd ⟨_, rfl⟩
  constructor
  · constructor
    · rintro ⟨⟨calls, zs⟩, h⟩
      obtain ⟨more, h1, _⟩ := copy_split h
      obtain ⟨_, _, _, _, hw, _⟩ := decompose_shape h1
      obtain ⟨ks, h3, h4, _⟩ := hw x rfl
      obtain ⟨g1, g2⟩ := C100_decompose x wordBits k
      exact ⟨(g2.1 ⟨ks, h3⟩).2.2, by rw [← h4]; exact (g1 ks h3).1⟩
    · rintro ⟨h1, h3⟩
      obtain ⟨ks, h4, h5, _⟩ := decomposeWord_ok x hk (by omega : k ≤ 8) h1
      refine hrun (some x) (ks.map some) (hceil.2 (le_of_eq h3)) ?_
      simp only [onKnown, h4, Except.map]
      show transposeVec (some ks) n = _
      unfold transposeVec
      show (assert (ks.length == n) >>= _) = _
      rw [assert_ok.2 (by simp [h5, h3])]
      rfl
  · constructor
    · rintro ⟨⟨calls, zs⟩, h⟩
      obtain ⟨more, h1, _⟩ := copy_split h
      exact hceil.1 (decompose_shape h1).1
    · intro h
      exact hrun none (List.replicate n none) (hceil.2 h) rfl

/-- An honest prover satisfies the constraints if the number has no more than the given bits. -/
theorem C102_complete (c : RunningSum) (k region offset : Nat) (a : Assigned (ZMod p)) (x : ZMod p) (strict : Bool)
    (wordBits n : Nat) (chip : Chip (ZMod p)) (hchip : c.chip k = .ok chip) (table : Nat → List (ZMod p))
    (w : Content (ZMod p)) (calls : Calls (ZMod p)) (zs : List (Assigned (ZMod p)))
    (ha : a.value = some x) (hx : x.val < 2 ^ wordBits)
    (h : c.copy k region offset a strict wordBits n = .ok (calls, zs)) (hk : Known w a) (hf : Follows w region calls) :
    Sat chip table w region calls := by
  obtain ⟨more, h1, rfl⟩ := copy_split h
  have hxa : x = w.at a.cell := by
    have : a.value = some (w.at a.cell) := hk
    rw [ha] at this
    simpa using this
  have hx0 : x = w region (.advice c.z) (offset : Int) := by
    have := hf.1 c.z offset a.value (by simp)
    rw [ha] at this
    simpa using this
  obtain ⟨_, h2k, words, hlen, hw, hzs, hcalls⟩ := decompose_shape h1
  obtain ⟨ks, h3, h4, _⟩ := hw x ha
  obtain ⟨g1, g2⟩ := C100_decompose x wordBits k
  obtain ⟨k0, k8, hwb⟩ := g2.1 ⟨ks, h3⟩
  obtain ⟨e1, e2⟩ := decompose_gate (w := w) (x := x) (z0 := ⟨⟨region, offset, .advice c.z⟩, a.value⟩) k0 k8 hwb ha hx0 h1
    (fun o v hv => hf.1 c.z o v (List.mem_append_right _ hv))
  rw [Nat.mod_eq_of_lt hx, ZMod.natCast_zmod_val, sub_self] at e2
  have hlast : w region (.advice c.z) ((offset + n : Nat) : Int) = 0 := by
    rcases mul_eq_zero.1 e2 with h | h
    · exact h
    · rw [pow_mul] at h
      exact absurd (pow_eq_zero_iff (M₀ := ZMod p) (fun hn => by rw [hn, pow_zero] at h; exact one_ne_zero h) |>.1 h) h2k
  obtain ⟨_, _, hc⟩ := bind_ok hchip
  simp only [pure, Except.pure, Except.ok.injEq] at hc
  refine ⟨?_, gates_of ?_, ?_⟩
  · intro q hq
    rw [List.mem_append] at hq
    rcases hq with hq | hq
    · simp only [List.mem_cons, List.not_mem_nil, or_false] at hq
      rcases hq with rfl | rfl
      · trivial
      · show w region (.advice c.z) (offset : Int) = w.at a.cell
        rw [← hx0, hxa]
    · rw [hcalls, List.mem_append, List.mem_append] at hq
      rcases hq with (hq | hq) | hq
      · obtain ⟨_, _, rfl⟩ := List.mem_map.1 hq
        trivial
      · obtain ⟨_, _, rfl⟩ := List.mem_map.1 hq
        trivial
      · split at hq
        · obtain rfl := List.mem_singleton.1 hq
          rw [hzs, last_cell rfl]
          show some 0 = some (w region (.advice c.z) ((offset + words.length : Nat) : Int))
          rw [hlen, hlast]
        · cases hq
  · intro g hg e he o ho
    rw [← hc] at hg
    obtain rfl := List.mem_singleton.1 hg
    obtain rfl := List.mem_singleton.1 he
    rw [eval_rangeCheck _ _ _ _ (by positivity)]
    have ho' : ∃ i, i < n ∧ o = offset + i := by
      rw [List.mem_append] at ho
      rcases ho with ho | ho
      · simp at ho
      · rw [hcalls, List.mem_append, List.mem_append] at ho
        rcases ho with (ho | ho) | ho
        · obtain ⟨i, hi, h⟩ := List.mem_map.1 ho
          simp only [Call.enable.injEq, true_and] at h
          exact ⟨i, List.mem_range.1 hi, h.symm⟩
        · obtain ⟨_, _, h⟩ := List.mem_map.1 ho
          cases h
        · split at ho <;> simp at ho
    obtain ⟨i, hi, rfl⟩ := ho'
    obtain ⟨m, hm, h⟩ := e1 i hi
    refine ⟨m, hm, ?_⟩
    rw [← h]
    simp only [eval_sub, eval_advice, eval_scaled, add_zero]
    push_cast
    rw [add_assoc]
  · intro l hl
    rw [← hc] at hl
    cases hl

/-- Where the windows hold more than the field, the sums are not determined: beside its own windows zero has those of
the modulus. Two contents with the same number in the cell satisfy the constraints of a strict decomposition, and
differ in the second cell returned. -/
theorem C102_ambiguous (c : RunningSum) (k region offset : Nat) (cell : Cell) (v : Option (ZMod p)) (wordBits n : Nat)
    (chip : Chip (ZMod p)) (hchip : c.chip k = .ok chip) (table : Nat → List (ZMod p))
    (calls : Calls (ZMod p)) (zs : List (Assigned (ZMod p))) (hk : 0 < k) (hp : 2 ^ k ≤ p) (hbig : p < 2 ^ (k * n))
    (hcell : cell.region ≠ region)
    (h : c.copy k region offset ⟨cell, v⟩ true wordBits n = .ok (calls, zs)) :
    ∃ (hl : 1 < zs.length) (w w' : Content (ZMod p)), Sat chip table w region calls ∧ Sat chip table w' region calls ∧
      w.at cell = 0 ∧ w'.at cell = 0 ∧ w.at zs[1].cell ≠ w'.at zs[1].cell := by
  have hp1 : p.Prime := Fact.out
  have hn : 0 < n := by
    rcases Nat.eq_zero_or_pos n with rfl | h
    · rw [mul_zero, pow_zero] at hbig
      have := hp1.two_le
      omega
    · exact h
  obtain ⟨more, h1, rfl⟩ := copy_split h
  obtain ⟨_, h2k, words, hlen, _, hzs, hcalls⟩ := decompose_shape h1
  obtain ⟨_, _, hc⟩ := bind_ok hchip
  simp only [pure, Except.pure, Except.ok.injEq] at hc
  have hzl : zs.length = n + 1 := by rw [hzs]; simp [sumCells_length, hlen]
  have key : ∀ f : Nat → ZMod p, f 0 = 0 → f n = 0 →
      (∀ i < n, ∃ m : Nat, m < 2 ^ k ∧ f i - f (i + 1) * 2 ^ k = m) →
      Sat chip table (fun r _ o => if r = region then f (o - offset).toNat else 0) region
        ([.advice c.z offset v, .equal ⟨region, offset, .advice c.z⟩ cell] ++ more) := by
    intro f hf0 hfn hf
    refine ⟨?_, gates_of (w := fun r _ o => if r = region then f (o - offset).toNat else 0) ?_, ?_⟩
    · intro q hq
      rw [List.mem_append] at hq
      rcases hq with hq | hq
      · simp only [List.mem_cons, List.not_mem_nil, or_false] at hq
        rcases hq with rfl | rfl
        · trivial
        · show (if region = region then f ((offset : Int) - offset).toNat else 0) =
            if cell.region = region then _ else 0
          rw [if_pos rfl, if_neg hcell]
          simp [hf0]
      · rw [hcalls, List.mem_append, List.mem_append] at hq
        rcases hq with (hq | hq) | hq
        · obtain ⟨_, _, rfl⟩ := List.mem_map.1 hq
          trivial
        · obtain ⟨_, _, rfl⟩ := List.mem_map.1 hq
          trivial
        · rw [if_pos rfl] at hq
          obtain rfl := List.mem_singleton.1 hq
          rw [hzs, last_cell rfl]
          show some 0 = some (if region = region then f (((offset + words.length : Nat) : Int) - offset).toNat else 0)
          rw [if_pos rfl, hlen]
          have : (((offset + n : Nat) : Int) - offset).toNat = n := by omega
          rw [this, hfn]
    · intro g hg e he o ho
      rw [← hc] at hg
      obtain rfl := List.mem_singleton.1 hg
      obtain rfl := List.mem_singleton.1 he
      rw [eval_rangeCheck _ _ _ _ (by positivity)]
      have ho' : ∃ i, i < n ∧ o = offset + i := by
        rw [List.mem_append] at ho
        rcases ho with ho | ho
        · simp at ho
        · rw [hcalls, List.mem_append, List.mem_append] at ho
          rcases ho with (ho | ho) | ho
          · obtain ⟨i, hi, h⟩ := List.mem_map.1 ho
            simp only [Call.enable.injEq, true_and] at h
            exact ⟨i, List.mem_range.1 hi, h.symm⟩
          · obtain ⟨_, _, h⟩ := List.mem_map.1 ho
            cases h
          · rw [if_pos rfl] at ho
            simp at ho
      obtain ⟨i, hi, rfl⟩ := ho'
      obtain ⟨m, hm, h⟩ := hf i hi
      refine ⟨m, hm, ?_⟩
      rw [← h]
      simp only [eval_sub, eval_advice, eval_scaled, add_zero, if_true]
      have a1 : (((offset + i : Nat) : Int) - offset).toNat = i := by omega
      have a2 : (((offset + i : Nat) : Int) + 1 - offset).toNat = i + 1 := by omega
      rw [a1, a2]
    · intro l hl
      rw [← hc] at hl
      cases hl
  have hcell1 : ∀ hl : 1 < zs.length, zs[1].cell = ⟨region, offset + 1, .advice c.z⟩ := by
    intro hl
    have := zs_cells (region := region) (col := c.z) (offset := offset) (inv := ((2 : ZMod p) ^ k)⁻¹)
      (z0 := ⟨⟨region, offset, .advice c.z⟩, v⟩) (words := words) rfl 1 (by rw [← hzs]; exact hl)
    simpa [hzs] using this
  refine ⟨by omega, _, _, key (fun _ => 0) rfl rfl (fun i _ => ⟨0, by positivity, by simp⟩),
    key (fun i => ((p / 2 ^ (k * i) : Nat) : ZMod p)) (by simp) (by simp [Nat.div_eq_of_lt hbig]) ?_, ?_, ?_, ?_⟩
  · intro i _
    refine ⟨p / 2 ^ (k * i) % 2 ^ k, Nat.mod_lt _ (by positivity), ?_⟩
    have h3 : p / 2 ^ (k * (i + 1)) = p / 2 ^ (k * i) / 2 ^ k := by
      rw [Nat.div_div_eq_div_mul, ← pow_add]
      ring_nf
    have h4 := Nat.div_add_mod (p / 2 ^ (k * i)) (2 ^ k)
    have h5 : ((p / 2 ^ (k * i) : Nat) : ZMod p) =
        ((2 ^ k * (p / 2 ^ (k * i) / 2 ^ k) + p / 2 ^ (k * i) % 2 ^ k : Nat) : ZMod p) := by rw [h4]
    rw [h3]
    rw [h5]
    push_cast
    ring
  · show (if cell.region = region then _ else 0) = 0
    rw [if_neg hcell]
  · show (if cell.region = region then _ else 0) = 0
    rw [if_neg hcell]
  · rw [hcell1]
    show (if region = region then (0 : ZMod p) else 0) ≠
      if region = region then ((p / 2 ^ (k * (((offset + 1 : Nat) : Int) - offset).toNat) : Nat) : ZMod p) else 0
    have a1 : (((offset + 1 : Nat) : Int) - offset).toNat = 1 := by omega
    rw [if_pos rfl, if_pos rfl, a1, mul_one, Ne, eq_comm, ZMod.natCast_eq_zero_iff]
    intro hdvd
    have h3 : 0 < p / 2 ^ k := Nat.div_pos hp (by positivity)
    have h4 : p / 2 ^ k < p := Nat.div_lt_self hp1.pos (Nat.one_lt_two_pow (by omega))
    exact absurd (Nat.le_of_dvd h3 hdvd) (by omega)

/-- What is called does not depend on the witness where both calls succeed, and the gate reads no cell that is not
assigned. -/
theorem C102_keys (c : RunningSum) (k region offset : Nat) (cell : Cell) (v v' : Option (ZMod p)) (strict : Bool)
    (wordBits n : Nat) (chip : Chip (ZMod p)) (hchip : c.chip k = .ok chip)
    (calls calls' : Calls (ZMod p)) (zs zs' : List (Assigned (ZMod p)))
    (h : c.copy k region offset ⟨cell, v⟩ strict wordBits n = .ok (calls, zs))
    (h' : c.copy k region offset ⟨cell, v'⟩ strict wordBits n = .ok (calls', zs')) :
    List.Forall₂ SameCall calls calls' ∧ Covered chip calls := by
  obtain ⟨more, h1, rfl⟩ := copy_split h
  obtain ⟨more', h1', rfl⟩ := copy_split h'
  obtain ⟨_, _, words, hlen, _, hzs, hcalls⟩ := decompose_shape h1
  obtain ⟨_, _, words', hlen', _, hzs', hcalls'⟩ := decompose_shape h1'
  constructor
  · refine List.Forall₂.cons (.advice ..) (List.Forall₂.cons (.refl _) ?_)
    show List.Forall₂ SameCall more more'
    rw [hcalls, hcalls']
    refine List.rel_append (List.rel_append ?_ ?_) ?_
    · exact List.forall₂_same.2 fun x _ => .refl x
    · rw [List.forall₂_map_left_iff, List.forall₂_map_right_iff, List.forall₂_iff_get]
      refine ⟨by rw [sumCells_length, sumCells_length, hlen, hlen'], fun i hi hi' => ?_⟩
      simp only [List.get_eq_getElem, sumCells_cell]
      exact .advice ..
    · rw [hzs, hzs', last_cell rfl, last_cell rfl, hlen, hlen']
      exact List.forall₂_same.2 fun x _ => .refl x
  · obtain ⟨_, _, hc⟩ := bind_ok hchip
    simp only [pure, Except.pure, Except.ok.injEq] at hc
    intro g hg row hrow e he q hq
    rw [← hc] at hg
    obtain rfl := List.mem_singleton.1 hg
    obtain rfl := List.mem_singleton.1 he
    have hq' := queries_rangeCheck hq
    obtain ⟨o, ho, rfl⟩ := enabled_iff.1 hrow
    have ho' : ∃ i, i < n ∧ o = offset + i := by
      rw [List.mem_append] at ho
      rcases ho with ho | ho
      · simp at ho
      · rw [hcalls, List.mem_append, List.mem_append] at ho
        rcases ho with (ho | ho) | ho
        · obtain ⟨i, hi, h⟩ := List.mem_map.1 ho
          simp only [Call.enable.injEq, true_and] at h
          exact ⟨i, List.mem_range.1 hi, h.symm⟩
        · obtain ⟨_, _, h⟩ := List.mem_map.1 ho
          cases h
        · split at ho <;> simp at ho
    obtain ⟨i, hi, rfl⟩ := ho'
    have hass : ∀ j, j ≤ n → assigns ([Call.advice c.z offset v,
        .equal ⟨region, offset, .advice c.z⟩ cell] ++ more) (.advice c.z) ((offset + j : Nat) : Int) := by
      intro j hj
      left
      rcases j with _ | j
      · exact ⟨c.z, offset, v, by simp, rfl, by simp⟩
      · have hl : j < (sumCells region c.z offset ((2 : ZMod p) ^ k)⁻¹ 0 ⟨⟨region, offset, .advice c.z⟩, v⟩ words).length := by
          rw [sumCells_length, hlen]; omega
        refine ⟨c.z, offset + (j + 1), (sumCells region c.z offset ((2 : ZMod p) ^ k)⁻¹ 0 ⟨⟨region, offset, .advice c.z⟩, v⟩ words)[j].value,
          List.mem_append_right _ ?_, rfl, rfl⟩
        rw [hcalls, List.mem_append, List.mem_append]
        left; right
        rw [List.mem_map]
        refine ⟨_, List.getElem_mem hl, ?_⟩
        rw [sumCells_cell]
        show Call.advice c.z (offset + 0 + 1 + j) _ = _
        rw [show offset + 0 + 1 + j = offset + (j + 1) by omega]
    simp only [queries_sub, queries_advice, queries_scaled, List.mem_append, List.mem_singleton] at hq'
    rcases hq' with rfl | rfl
    · simpa using hass i (by omega)
    · have := hass (i + 1) (by omega)
      push_cast at this
      rw [← add_assoc] at this
      simpa using this

end

/-- 100 in 3 windows of 3 bits: what is returned, and that it does not fit into two. -/
example : ∃ calls zs, RunningSum.copy (p := 257) ⟨⟨0, true⟩, 0⟩ 3 1 0 ⟨⟨0, 0, .advice 0⟩, some 100⟩ true 8 3 = .ok (calls, zs) ∧
    zs.map (·.value) = [some 100, some 12, some 1, some 0] ∧ 2 ^ (3 * 2) ≤ 257 := by
  refine ⟨_, _, rfl, ?_, by norm_num⟩
  decide +kernel

/-- The windows of 86 times 3 bits, more than the scalar field of bn256 has, are taken. -/
example : (∃ r, RunningSum.copy (p := P) ⟨⟨0, true⟩, 0⟩ 3 1 0 (⟨⟨0, 0, .advice 0⟩, none⟩ : Assigned Fr) true 256 86 = .ok r) ∧
    P < 2 ^ (3 * 86) ∧ 2 ^ 3 ≤ P := by
  refine ⟨((C102_runs ⟨⟨0, true⟩, 0⟩ 3 1 0 ⟨0, 0, .advice 0⟩ 0 true 256 86 (by norm_num) (by norm_num) ?_).2).2 (by norm_num), ?_, ?_⟩ <;>
    decide +kernel

/-! C103: range checks by lookup. -/

/-- The selectors of the range check are distinct, as they are when made by `configure`. -/
def RangeCheckDistinct (c : RangeCheck) : Prop :=
  c.qLookup ≠ c.qRunning ∧ c.qRunning ≠ c.qBitshift ∧ c.qLookup ≠ c.qBitshift

section

variable {p : Nat}

/-- The table that `load` fills has the numbers of `k` bits. -/
theorem C103_table (k : Nat) : IsTable k (RangeCheck.load (p := p) k) := by
  intro x
  simp only [RangeCheck.load, List.mem_map, List.mem_range]
  exact ⟨fun ⟨n, h1, h2⟩ => ⟨n, h1, h2.symm⟩, fun ⟨n, h1, h2⟩ => ⟨n, h1, h2.symm⟩⟩

variable [Fact p.Prime]

/-- Whatever a prover puts into the cells: if the constraints of a strict range check hold, the number in the cell has
no more bits than the words, and the cells returned contain its quotients. -/
theorem C103_sound (c : RangeCheck) (k region : Nat) (a : Assigned (ZMod p)) (n : Nat)
    (table : Nat → List (ZMod p)) (ht : IsTable k (table c.tableIdx)) (w : Content (ZMod p))
    (calls : Calls (ZMod p)) (zs : List (Assigned (ZMod p)))
    (h : c.copyCheck k region a n true = .ok (calls, zs)) (hs : Sat (c.chip k) table w region calls) :
    zs.length = n + 1 ∧ (w.at a.cell).val < 2 ^ (n * k) ∧
    ∀ i (hi : i < zs.length), (w.at zs[i].cell).val = (w.at a.cell).val / 2 ^ (i * k) := by
  obtain ⟨more, h1, rfl⟩ := copyCheck_split h
  obtain ⟨e1, e2, e3, e4⟩ := rangeCheck_sound ht rfl h1 hs
  have hcopy : w region (.advice c.runningSum) ((0 : Nat) : Int) = w.at a.cell :=
    sat_copy hs (a := ⟨region, 0, .advice c.runningSum⟩) (by simp)
  obtain ⟨f1, f2⟩ := sum_sound n (fun i => w region (.advice c.runningSum) (i : Int)) e3 (e4 rfl) (capacity (rangeCheck_shape h1).1)
  simp only [hcopy] at f1 f2
  refine ⟨e1, by rw [mul_comm]; exact f1, fun i hi => ?_⟩
  rw [e2 i hi, mul_comm i k]
  exact f2 i (by omega)

/-- Without `strict`, the number is made of words and what is left over. -/
theorem C103_open (c : RangeCheck) (k region : Nat) (a : Assigned (ZMod p)) (n : Nat) (strict : Bool)
    (table : Nat → List (ZMod p)) (ht : IsTable k (table c.tableIdx)) (w : Content (ZMod p))
    (calls : Calls (ZMod p)) (zs : List (Assigned (ZMod p)))
    (h : c.copyCheck k region a n strict = .ok (calls, zs)) (hs : Sat (c.chip k) table w region calls) :
    ∃ hl : n < zs.length, ∃ m : Nat, m < 2 ^ (n * k) ∧ w.at a.cell = m + 2 ^ (n * k) * w.at zs[n].cell := by
  obtain ⟨more, h1, rfl⟩ := copyCheck_split h
  obtain ⟨e1, e2, e3, e4⟩ := rangeCheck_sound ht rfl h1 hs
  have hcopy : w region (.advice c.runningSum) ((0 : Nat) : Int) = w.at a.cell :=
    sat_copy hs (a := ⟨region, 0, .advice c.runningSum⟩) (by simp)
  obtain ⟨m, hm, f⟩ := sum_open n (fun i => w region (.advice c.runningSum) (i : Int)) e3
  refine ⟨by omega, m, by rw [mul_comm]; exact hm, ?_⟩
  rw [e2 n (by omega), ← hcopy, mul_comm n k]
  exact f

/-- An honest prover satisfies the constraints of a range check if the number has no more bits than the words; without
`strict`, always. -/
theorem C103_complete (c : RangeCheck) (hd : RangeCheckDistinct c) (k region : Nat) (a : Assigned (ZMod p)) (x : ZMod p)
    (n : Nat) (strict : Bool) (table : Nat → List (ZMod p)) (ht : IsTable k (table c.tableIdx)) (w : Content (ZMod p))
    (calls : Calls (ZMod p)) (zs : List (Assigned (ZMod p))) (hk : 0 < k) (hk' : k ≤ 64) (hp : p < 2 ^ 256)
    (ha : a.value = some x) (hx : strict = true → x.val < 2 ^ (n * k))
    (h : c.copyCheck k region a n strict = .ok (calls, zs)) (hw : Known w a) (hf : Follows w region calls) :
    Sat (c.chip k) table w region calls := by
  obtain ⟨more, h1, rfl⟩ := copyCheck_split h
  have hxa : x = w.at a.cell := by
    have : a.value = some (w.at a.cell) := hw
    rw [ha] at this
    simpa using this
  have hx0 : x = w region (.advice c.runningSum) 0 := by
    have := hf.1 c.runningSum 0 a.value (by simp)
    rw [ha] at this
    simpa using this
  obtain ⟨_, h2k, words, hlen, _, hzs, hcalls⟩ := rangeCheck_shape h1
  obtain ⟨e1, e2⟩ := rangeCheck_words (w := w) (x := x) (z0 := ⟨⟨region, 0, .advice c.runningSum⟩, a.value⟩) hk hk' hp
    ha hx0 h1 (fun o v hv => hf.1 c.runningSum o v (List.mem_append_right _ hv))
  have hlast : strict = true → w region (.advice c.runningSum) (n : Int) = 0 := by
    intro hst
    rw [Nat.mod_eq_of_lt (hx hst), ZMod.natCast_zmod_val, sub_self] at e2
    rcases mul_eq_zero.1 e2 with h | h
    · exact h
    · rw [pow_mul] at h
      exact absurd (pow_eq_zero_iff (M₀ := ZMod p) (fun hn => by rw [hn, pow_zero] at h; exact one_ne_zero h) |>.1 h) h2k
  have hmem : ∀ s o, Call.enable s o ∈ ([Call.advice c.runningSum 0 a.value,
      .equal ⟨region, 0, .advice c.runningSum⟩ a.cell] ++ more) ↔ o < n ∧ (s = c.qLookup ∨ s = c.qRunning) := by
    intro s o
    rw [hcalls, List.mem_append, List.mem_append, mem_flat]
    constructor
    · rintro (h | ⟨i, hi, h⟩ | h)
      · simp at h
      · rw [sumCells_length, hlen] at hi
        rcases h with h | h | h
        · simp only [Call.enable.injEq] at h
          exact ⟨by omega, Or.inl h.1⟩
        · simp only [Call.enable.injEq] at h
          exact ⟨by omega, Or.inr h.1⟩
        · cases h
      · split at h <;> simp at h
    · rintro ⟨h1, h2⟩
      right; left
      refine ⟨o, by rw [sumCells_length, hlen]; exact h1, ?_⟩
      rcases h2 with rfl | rfl
      · exact Or.inl rfl
      · exact Or.inr (Or.inl rfl)
  refine ⟨?_, gates_of ?_, ?_⟩
  · intro q hq
    rw [List.mem_append] at hq
    rcases hq with hq | hq
    · simp only [List.mem_cons, List.not_mem_nil, or_false] at hq
      rcases hq with rfl | rfl
      · trivial
      · show w region (.advice c.runningSum) ((0 : Nat) : Int) = w.at a.cell
        rw [Nat.cast_zero, ← hx0, hxa]
    · rw [hcalls, List.mem_append, mem_flat] at hq
      rcases hq with ⟨_, _, rfl | rfl | rfl⟩ | hq
      · trivial
      · trivial
      · trivial
      · split at hq
        · rename_i hst
          obtain rfl := List.mem_singleton.1 hq
          rw [hzs, last_cell rfl]
          show some 0 = some (w region (.advice c.runningSum) ((0 + words.length : Nat) : Int))
          rw [Nat.zero_add, hlen, hlast hst]
        · cases hq
  · intro g hg e he o ho
    obtain rfl := List.mem_singleton.1 hg
    rcases ((hmem _ _).1 ho).2 with h | h
    · exact absurd h.symm hd.2.2
    · exact absurd h.symm hd.2.1
  · intro l hl row
    obtain ⟨g1, g2⟩ := eval_lookup (c := c) (k := k) (sel := enabled ([Call.advice c.runningSum 0 a.value,
      .equal ⟨region, 0, .advice c.runningSum⟩ a.cell] ++ more)) (w := w region) (row := row) l hl
    rw [g1, g2, ht]
    by_cases hr : ∃ o : Nat, o < n ∧ row = o
    · obtain ⟨o, ho, rfl⟩ := hr
      rw [enabled_iff.2 ⟨o, (hmem _ _).2 ⟨ho, Or.inl rfl⟩, rfl⟩, enabled_iff.2 ⟨o, (hmem _ _).2 ⟨ho, Or.inr rfl⟩, rfl⟩]
      obtain ⟨m, hm, h⟩ := e1 o ho
      refine ⟨m, hm, ?_⟩
      rw [← h]
      push_cast
      simp
    · rw [enabled_false (s := c.qLookup) (fun o ho hro => hr ⟨o, ((hmem _ _).1 ho).1, hro⟩)]
      exact ⟨0, by positivity, by simp⟩

/-- A short range check: whatever a prover puts into the cells, the number has no more than the given bits. -/
theorem C103_short_sound (c : RangeCheck) (hd : RangeCheckDistinct c) (k region : Nat) (a : Assigned (ZMod p)) (numBits : Nat)
    (table : Nat → List (ZMod p)) (ht : IsTable k (table c.tableIdx)) (w : Content (ZMod p))
    (calls : Calls (ZMod p)) (hfit : 2 ^ (2 * k - numBits) ≤ p)
    (h : c.copyShort k region a numBits = .ok calls) (hs : Sat (c.chip k) table w region calls) :
    (w.at a.cell).val < 2 ^ numBits := by
  obtain ⟨_, h1, h⟩ := bind_ok h
  obtain ⟨more, h2, h⟩ := bind_ok h
  have hnb : numBits < k := by simpa using assert_ok.1 h1
  obtain ⟨rfl⟩ : calls = _ := by simpa [pure, Except.pure, copyAdvice] using h.symm
  have hcopy : w region (.advice c.runningSum) ((0 : Nat) : Int) = w.at a.cell :=
    sat_copy hs (a := ⟨region, 0, .advice c.runningSum⟩) (by simp)
  have := short_sound hd hnb.le ht hfit h2 (pre := [.advice c.runningSum 0 a.value,
    .equal ⟨region, 0, .advice c.runningSum⟩ a.cell]) (by simp) hs
  rwa [← hcopy]

/-- The same for a value that is witnessed, with up to `k` bits. -/
theorem C103_witness_short_sound (c : RangeCheck) (hd : RangeCheckDistinct c) (k region : Nat) (v : Option (ZMod p))
    (numBits : Nat) (table : Nat → List (ZMod p)) (ht : IsTable k (table c.tableIdx)) (w : Content (ZMod p))
    (calls : Calls (ZMod p)) (a : Assigned (ZMod p)) (hfit : 2 ^ (2 * k - numBits) ≤ p)
    (h : c.witnessShort k region v numBits = .ok (calls, a)) (hs : Sat (c.chip k) table w region calls) :
    (w.at a.cell).val < 2 ^ numBits := by
  obtain ⟨_, h1, h⟩ := bind_ok h
  obtain ⟨more, h2, h⟩ := bind_ok h
  have hnb : numBits ≤ k := by simpa using assert_ok.1 h1
  simp only [pure, Except.pure, Except.ok.injEq, Prod.mk.injEq] at h
  obtain ⟨rfl, rfl⟩ := h
  exact short_sound hd hnb ht hfit h2 (pre := [.advice c.runningSum 0 v]) (by simp) hs

/-- An honest prover satisfies the constraints of a short range check if the number has no more than the given bits. -/
theorem C103_short_complete (c : RangeCheck) (hd : RangeCheckDistinct c) (k region : Nat) (a : Assigned (ZMod p)) (x : ZMod p)
    (numBits : Nat) (table : Nat → List (ZMod p)) (ht : IsTable k (table c.tableIdx)) (w : Content (ZMod p))
    (hp : p ≠ 2) (hnb : numBits < k) (ha : a.value = some x) (hx : x.val < 2 ^ numBits) (hw : Known w a) :
    ∃ calls, c.copyShort k region a numBits = .ok calls ∧
      (Follows w region calls → Sat (c.chip k) table w region calls) := by
  have h2 := two_pow_ne_zero (k := numBits) hp
  refine ⟨_, by
    unfold RangeCheck.copyShort RangeCheck.shortRangeCheck
    rw [assert_ok.2 (by simpa using hnb), assert_ok.2 (by simpa using h2)]
    rfl, fun hf => ?_⟩
  have hxa : x = w.at a.cell := by
    have : a.value = some (w.at a.cell) := hw
    rw [ha] at this
    simpa using this
  have hx0 : x = w region (.advice c.runningSum) 0 := by
    have := hf.1 c.runningSum 0 a.value (by simp)
    rw [ha] at this
    simpa using this
  have hx1 : x * 2 ^ (k - numBits) = w region (.advice c.runningSum) 1 := by
    have := hf.1 c.runningSum 1 (some (x * 2 ^ (k - numBits))) (by simp [ha])
    simpa using this
  have hx2 : ((2 : ZMod p) ^ numBits)⁻¹ = w region (.advice c.runningSum) 2 := by
    have := hf.2.1 c.runningSum 2 (some ((2 : ZMod p) ^ numBits)⁻¹) (by simp)
    simpa using this
  refine ⟨?_, gates_of ?_, ?_⟩
  · intro q hq
    simp only [List.cons_append, List.nil_append, List.mem_cons, List.not_mem_nil, or_false] at hq
    rcases hq with rfl | rfl | rfl | rfl | rfl | rfl | rfl <;> try trivial
    · show w region (.advice c.runningSum) ((0 : Nat) : Int) = w.at a.cell
      rw [Nat.cast_zero, ← hx0, hxa]
    · show some _ = some (w region (.advice c.runningSum) ((2 : Nat) : Int))
      rw [Nat.cast_ofNat, hx2]
  · intro g hg e he o ho
    obtain rfl := List.mem_singleton.1 hg
    obtain rfl := List.mem_singleton.1 he
    simp only [List.cons_append, List.nil_append, List.mem_cons, List.not_mem_nil, or_false, reduceCtorEq,
      Call.enable.injEq, false_or] at ho
    have ho1 : o = 1 := by
      rcases ho with ⟨h, _⟩ | ⟨h, _⟩ | ⟨_, h⟩
      · exact absurd h.symm hd.2.2
      · exact absurd h.symm hd.2.2
      · exact h
    subst ho1
    simp only [eval_sub, eval_mul, eval_scaled, eval_advice, Nat.cast_one]
    have hpow : (2 : ZMod p) ^ k = 2 ^ (k - numBits) * 2 ^ numBits := by rw [← pow_add]; congr 1; omega
    norm_num
    rw [← hx0, ← hx1, ← hx2, hpow]
    field_simp
    ring
  · intro l hl row
    obtain ⟨g1, g2⟩ := eval_lookup (c := c) (k := k) (sel := enabled ([Call.advice c.runningSum 0 a.value,
        .equal ⟨region, 0, .advice c.runningSum⟩ a.cell] ++ [Call.enable c.qLookup 0, .enable c.qLookup 1,
      .enable c.qBitshift 1, .advice c.runningSum 1 (a.value.map fun x => x * (2 : ZMod p) ^ (k - numBits)),
      .constant c.runningSum 2 (some ((2 : ZMod p) ^ numBits)⁻¹)])) (w := w region) (row := row) l hl
    rw [g1, g2, ht, enabled_false (s := c.qRunning)]
    · by_cases hr : row = 0 ∨ row = 1
      · have hen : enabled ([Call.advice c.runningSum 0 a.value,
        .equal ⟨region, 0, .advice c.runningSum⟩ a.cell] ++ [Call.enable c.qLookup 0, .enable c.qLookup 1,
            .enable c.qBitshift 1, .advice c.runningSum 1 (a.value.map fun x => x * (2 : ZMod p) ^ (k - numBits)),
            .constant c.runningSum 2 (some ((2 : ZMod p) ^ numBits)⁻¹)]) c.qLookup row = true := by
          rcases hr with rfl | rfl
          · exact enabled_iff.2 ⟨0, by simp, rfl⟩
          · exact enabled_iff.2 ⟨1, by simp, rfl⟩
        rw [hen]
        rcases hr with rfl | rfl
        · refine ⟨x.val, lt_of_lt_of_le hx (Nat.pow_le_pow_right (by norm_num) hnb.le), ?_⟩
          rw [ZMod.natCast_zmod_val, ← hx0]
          simp
        · refine ⟨x.val * 2 ^ (k - numBits), ?_, ?_⟩
          · calc x.val * 2 ^ (k - numBits) < 2 ^ numBits * 2 ^ (k - numBits) := Nat.mul_lt_mul_of_pos_right hx (by positivity)
              _ = 2 ^ k := by rw [← pow_add]; congr 1; omega
          · push_cast
            rw [ZMod.natCast_zmod_val, hx1]
            simp
      · rw [enabled_false (s := c.qLookup)]
        · exact ⟨0, by positivity, by simp⟩
        · intro o ho hro
          simp only [List.cons_append, List.nil_append, List.mem_cons, List.not_mem_nil, or_false, reduceCtorEq,
            Call.enable.injEq, false_or] at ho
          apply hr
          rcases ho with ⟨_, h⟩ | ⟨_, h⟩ | ⟨h, _⟩
          · left; rw [hro, h]; rfl
          · right; rw [hro, h]; rfl
          · exact absurd h hd.2.2
    · intro o ho
      simp only [List.cons_append, List.nil_append, List.mem_cons, List.not_mem_nil, or_false, reduceCtorEq,
        Call.enable.injEq, false_or] at ho
      rcases ho with ⟨h, _⟩ | ⟨h, _⟩ | ⟨h, _⟩
      · exact absurd h.symm hd.1
      · exact absurd h.symm hd.1
      · exact absurd h hd.2.1

end

/-- 100 checked against 2 words of 4 bits: what is called meets the hypotheses, and the cells hold the quotients. -/
example : ∃ calls zs, RangeCheck.copyCheck (p := 257) ⟨⟨0, false⟩, ⟨1, false⟩, ⟨2, true⟩, 0, 0⟩ 4 1
      ⟨⟨0, 0, .advice 1⟩, some 100⟩ 2 true = .ok (calls, zs) ∧ zs.map (·.value) = [some 100, some 6, some 0] ∧
    RangeCheckDistinct ⟨⟨0, false⟩, ⟨1, false⟩, ⟨2, true⟩, 0, 0⟩ := by
  refine ⟨_, _, rfl, ?_, ?_⟩
  · decide +kernel
  · unfold RangeCheckDistinct; decide

/-- Three words of 4 bits are more than this field has, and are refused. -/
example : RangeCheck.copyCheck (p := 257) ⟨⟨0, false⟩, ⟨1, false⟩, ⟨2, true⟩, 0, 0⟩ 4 1
    ⟨⟨0, 0, .advice 1⟩, some 100⟩ 3 true = .error .panic := by rfl

/-- A short check of 2 bits in words of 4. -/
example : ∃ calls, RangeCheck.copyShort (p := 257) ⟨⟨0, false⟩, ⟨1, false⟩, ⟨2, true⟩, 0, 0⟩ 4 1
    ⟨⟨0, 0, .advice 1⟩, some 3⟩ 2 = .ok calls ∧ 2 ^ (2 * 4 - 2) ≤ 257 := ⟨_, rfl, by norm_num⟩

end Verif.Props

#print axioms Verif.Props.C100_range_check
#print axioms Verif.Props.C100_bool
#print axioms Verif.Props.C100_bitrange
#print axioms Verif.Props.C100_decompose
#print axioms Verif.Props.C100_lebs
#print axioms Verif.Props.C101_sound
#print axioms Verif.Props.C101_complete
#print axioms Verif.Props.C101_keys
#print axioms Verif.Props.C102_sound_partial
#print axioms Verif.Props.C102_open
#print axioms Verif.Props.C102_runs
#print axioms Verif.Props.C102_complete
#print axioms Verif.Props.C102_ambiguous
#print axioms Verif.Props.C102_keys
#print axioms Verif.Props.C103_table
#print axioms Verif.Props.C103_sound
#print axioms Verif.Props.C103_open
#print axioms Verif.Props.C103_complete
#print axioms Verif.Props.C103_short_sound
#print axioms Verif.Props.C103_witness_short_sound
#print axioms Verif.Props.C103_short_complete
