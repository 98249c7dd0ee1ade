import Verif.Lemmas.GadgetSum
import Mathlib.Tactic.FieldSimp

namespace Verif.Lemmas.Gadget

open Verif.FloorPlanner (Call)
open Verif.Gadget Verif.Spec.Gadget

variable {p : Nat}

theorem mapM_lebs {k : Nat} (hk : k ≤ 64) : ∀ (l : List (List Bool)), (∀ c ∈ l, c.length = k) →
    l.mapM lebs2ip = .ok (l.map ofBits)
  | [], _ => rfl
  | c :: l, h => by
    rw [List.mapM_cons, lebs2ip_ok (by rw [h c (by simp)]; exact hk), mapM_lebs hk l (fun c hc => h c (by simp [hc]))]
    rfl

theorem words_ok {k n : Nat} (hk : 0 < k) (hk' : k ≤ 64) (hn : n * k ≤ 256) (x : ZMod p) :
    ∃ ks, RangeCheck.words k n x = .ok ks ∧ ks.length = n ∧ (∀ m ∈ ks, m < 2 ^ k) ∧
      ofChunks k ks = x.val % 2 ^ (n * k) := by
  have hlen : ((toLeBits x).take (n * k)).length = n * k := by
    rw [List.length_take, length_toLeBits, Nat.min_eq_left hn]
  refine ⟨(chunksExact k ((toLeBits x).take (n * k))).map ofBits, ?_, ?_, ?_, ?_⟩
  · unfold RangeCheck.words
    rw [assert_ok.2 (by simpa using hk), mapM_lebs hk' _ (fun c hc => chunk_length hc)]
    rfl
  · rw [List.length_map, length_chunksExact, hlen, Nat.mul_div_cancel _ hk]
  · intro m hm
    obtain ⟨c, hc, rfl⟩ := List.mem_map.1 hm
    rw [← chunk_length hc]
    exact ofBits_lt c
  · rw [ofChunks_chunks hk n _ hlen, take_toLeBits x hn, List.range_eq_range', ofBits_testBit]
    simp

/-- What a successful range check returns and calls. -/
theorem rangeCheck_shape {c : RangeCheck} {k region : Nat} {z0 : Assigned (ZMod p)} {strict : Bool}
    {n : Nat} {calls : Calls (ZMod p)} {zs : List (Assigned (ZMod p))}
    (h : c.rangeCheck k region z0 n strict = .ok (calls, zs)) :
    n * k ≤ p.size - 1 ∧ (2 : ZMod p) ^ k ≠ 0 ∧ ∃ words : List (Option (ZMod p)), words.length = n ∧
      (∀ x, z0.value = some x → ∃ ks, RangeCheck.words k n x = .ok ks ∧ ks.length = n ∧
        words = ks.map fun (m : Nat) => some (m : ZMod p)) ∧
      zs = z0 :: sumCells region c.runningSum 0 ((2 : ZMod p) ^ k)⁻¹ 0 z0 words ∧
      calls = (sumCells region c.runningSum 0 ((2 : ZMod p) ^ k)⁻¹ 0 z0 words).zipIdx.flatMap
          (fun (a, idx) => [.enable c.qLookup idx, .enable c.qRunning idx, .advice c.runningSum (idx + 1) a.value]) ++
        (if strict then [.equalConstant (zs.getLast?.getD z0).cell (some 0)] else []) := by
  unfold RangeCheck.rangeCheck at h
  obtain ⟨_, h1, h⟩ := bind_ok h
  obtain ⟨d, h2, h⟩ := bind_ok h
  obtain ⟨ws, h3, h⟩ := bind_ok h
  obtain ⟨_, h4, h⟩ := bind_ok h
  simp only [pure, Except.pure, Except.ok.injEq, Prod.mk.injEq] at h
  obtain ⟨h6, h7⟩ := h
  refine ⟨by simpa using assert_ok.1 h1, by simpa using assert_ok.1 h4,
    ws.map (fun w => w.map fun (n : Nat) => (n : ZMod p)), ?_, ?_, h7.symm, ?_⟩
  · rw [List.length_map, transposeVec_length h3]
  · intro x hx
    rw [hx] at h2
    simp only [onKnown, Except.map] at h2
    cases hd : RangeCheck.words k n x with
    | error e => rw [hd] at h2; cases h2
    | ok ks =>
      rw [hd] at h2
      simp only [Except.ok.injEq] at h2
      subst h2
      obtain ⟨h8, rfl⟩ := transposeVec_some h3
      exact ⟨ks, rfl, h8, by simp⟩
  · rw [← h6, ← h7]

theorem mem_flat {c : RangeCheck} {l : List (Assigned (ZMod p))} {x : Call (Option (ZMod p))} :
    x ∈ l.zipIdx.flatMap (fun (a, idx) => [Call.enable c.qLookup idx, .enable c.qRunning idx,
      .advice c.runningSum (idx + 1) a.value]) ↔
    ∃ (i : Nat) (h : i < l.length), x = .enable c.qLookup i ∨ x = .enable c.qRunning i ∨
      x = .advice c.runningSum (i + 1) l[i].value := by
  rw [List.mem_flatMap]
  constructor
  · rintro ⟨⟨a, i⟩, h1, h2⟩
    obtain ⟨_, h3, h4⟩ := List.mem_zipIdx h1
    simp only [Nat.sub_zero] at h4
    simp only [List.mem_cons, List.not_mem_nil, or_false] at h2
    exact ⟨i, by simpa using h3, by rw [← h4]; exact h2⟩
  · rintro ⟨i, h, h1⟩
    refine ⟨(l[i], i), ?_, by simpa using h1⟩
    rw [List.mem_zipIdx_iff_getElem?]
    simp [h]

theorem eval_lookup {c : RangeCheck} {k : Nat} {sel : Selector → Int → Bool} {w : Col → Int → ZMod p} {row : Int} :
    ∀ l ∈ (c.chip (p := p) k).lookups, l.2 = c.tableIdx ∧ l.1.eval sel w row =
      (if sel c.qLookup row then 1 else 0) * ((if sel c.qRunning row then 1 else 0) *
        (w (.advice c.runningSum) row - w (.advice c.runningSum) (row + 1) * 2 ^ k) +
        (1 - if sel c.qRunning row then 1 else 0) * w (.advice c.runningSum) row) := by
  intro l hl
  obtain rfl := List.mem_singleton.1 hl
  exact ⟨rfl, by simp⟩

theorem rangeCheck_sound {c : RangeCheck} {k region : Nat} {z0 : Assigned (ZMod p)} {strict : Bool}
    {n : Nat} {calls more : Calls (ZMod p)} {zs : List (Assigned (ZMod p))}
    {table : Nat → List (ZMod p)} {w : Content (ZMod p)} (ht : IsTable k (table c.tableIdx))
    (h0 : z0.cell = ⟨region, 0, .advice c.runningSum⟩)
    (h : c.rangeCheck k region z0 n strict = .ok (calls, zs))
    (hs : Sat (c.chip k) table w region (more ++ calls)) :
    zs.length = n + 1 ∧ (∀ i (hi : i < zs.length), w.at zs[i].cell = w region (.advice c.runningSum) (i : Int)) ∧
    (∀ i < n, ∃ m : Nat, m < 2 ^ k ∧ w region (.advice c.runningSum) (i : Int) -
      w region (.advice c.runningSum) ((i + 1 : Nat) : Int) * 2 ^ k = m) ∧
    (strict = true → w region (.advice c.runningSum) (n : Int) = 0) := by
  obtain ⟨_, _, words, hw, _, rfl, hcalls⟩ := rangeCheck_shape h
  refine ⟨by simp [sumCells_length, hw], ?_, ?_, ?_⟩
  · intro i hi
    rw [zs_cells h0 i hi, Nat.zero_add]
    rfl
  · intro i hi
    have hl : i < (sumCells region c.runningSum 0 ((2 : ZMod p) ^ k)⁻¹ 0 z0 words).length := by
      rw [sumCells_length, hw]; exact hi
    have h1 : enabled (more ++ calls) c.qLookup (i : Int) = true := enabled_iff.2 ⟨i, by
      rw [hcalls]
      exact List.mem_append_right _ (List.mem_append_left _ (mem_flat.2 ⟨i, hl, Or.inl rfl⟩)), rfl⟩
    have h2 : enabled (more ++ calls) c.qRunning (i : Int) = true := enabled_iff.2 ⟨i, by
      rw [hcalls]
      exact List.mem_append_right _ (List.mem_append_left _ (mem_flat.2 ⟨i, hl, Or.inr (Or.inl rfl)⟩)), rfl⟩
    have h3 := hs.lookups _ (List.mem_singleton.2 rfl) (i : Int)
    obtain ⟨e1, e2⟩ := eval_lookup (c := c) (k := k) (sel := enabled (more ++ calls)) (w := w region) (row := (i : Int))
      _ (List.mem_singleton.2 rfl)
    rw [e2] at h3
    obtain ⟨m, hm, h4⟩ := (ht _).1 h3
    rw [h1, h2] at h4
    refine ⟨m, hm, ?_⟩
    rw [← h4]
    push_cast
    simp
  · intro hstrict
    have hmem : Call.equalConstant (((z0 :: sumCells region c.runningSum 0 ((2 : ZMod p) ^ k)⁻¹ 0 z0 words).getLast?).getD
        z0).cell (some 0) ∈ more ++ calls := by
      rw [hcalls, hstrict]
      simp
    have := hs.enforced _ hmem
    rw [last_cell h0, hw] at this
    simp only [Enforced, Option.some.injEq, Nat.zero_add] at this
    exact this.symm

/-- The words of what an honest prover assigns. -/
theorem rangeCheck_words [Fact p.Prime] {c : RangeCheck} {k region : Nat} {z0 : Assigned (ZMod p)} {strict : Bool}
    {n : Nat} {calls : Calls (ZMod p)} {zs : List (Assigned (ZMod p))} {w : Content (ZMod p)} {x : ZMod p}
    (hk : 0 < k) (hk' : k ≤ 64) (hp : p < 2 ^ 256)
    (hx : z0.value = some x) (hx' : x = w region (.advice c.runningSum) 0)
    (h : c.rangeCheck k region z0 n strict = .ok (calls, zs))
    (hf : ∀ o v, Call.advice c.runningSum o v ∈ calls → v = some (w region (.advice c.runningSum) o)) :
    (∀ i < n, ∃ m : Nat, m < 2 ^ k ∧ w region (.advice c.runningSum) (i : Int) -
      w region (.advice c.runningSum) ((i + 1 : Nat) : Int) * 2 ^ k = m) ∧
    w region (.advice c.runningSum) (n : Int) * 2 ^ (k * n) = x - ((x.val % 2 ^ (n * k) : Nat) : ZMod p) := by
  obtain ⟨hcap, h2k, words, hw, hwords, rfl, hcalls⟩ := rangeCheck_shape h
  obtain ⟨ks, hks, hkl, rfl⟩ := hwords x hx
  have hsz : p.size ≤ 256 := Nat.size_le.2 hp
  obtain ⟨ks', hks', -, hlt, hsum⟩ := words_ok (n := n) hk hk' (by omega) x
  rw [hks] at hks'
  cases hks'
  set zs := z0 :: sumCells region c.runningSum 0 ((2 : ZMod p) ^ k)⁻¹ 0 z0 (ks.map fun (m : Nat) => some (m : ZMod p))
    with hzs
  have hzl : zs.length = n + 1 := by rw [hzs]; simp [sumCells_length, hkl]
  have hval : ∀ i (hi : i < zs.length), zs[i].value = some (w region (.advice c.runningSum) (i : Int)) := by
    intro i hi
    rcases i with _ | i
    · simp only [hzs, List.getElem_cons_zero, hx, hx']
      simp
    · apply hf
      rw [hcalls]
      have hi' : i < (sumCells region c.runningSum 0 ((2 : ZMod p) ^ k)⁻¹ 0 z0
          (ks.map fun (m : Nat) => some (m : ZMod p))).length := by
        simpa [hzs] using hi
      exact List.mem_append_left _ (mem_flat.2 ⟨i, hi', Or.inr (Or.inr rfl)⟩)
  have hstep : ∀ i (hi : i < n), w region (.advice c.runningSum) (i : Int) -
      w region (.advice c.runningSum) ((i + 1 : Nat) : Int) * 2 ^ k = (ks[i]'(by omega) : ZMod p) := by
    intro i hi
    obtain ⟨y, h1, h2, h3⟩ := sumCells_value region c.runningSum 0 ((2 : ZMod p) ^ k)⁻¹ ks 0 z0 x hx i
      (by rw [← hzs]; omega) (by omega)
    have e1 := hval i (by omega)
    have e2 := hval (i + 1) (by omega)
    rw [h1] at e1
    rw [h3] at e2
    simp only [Option.some.injEq] at e1 e2
    rw [← e2, ← e1, mul_assoc, inv_mul_cancel₀ h2k]
    ring
  refine ⟨fun i hi => ⟨ks[i]'(by omega), hlt _ (List.getElem_mem _), hstep i hi⟩, ?_⟩
  have := chunks_key (k := k) ks (fun i => w region (.advice c.runningSum) (i : Int)) (fun i hi => hstep i (by omega))
  rw [hkl, hsum] at this
  rw [this, hx']
  simp

theorem copyCheck_split {c : RangeCheck} {k region : Nat} {a : Assigned (ZMod p)} {strict : Bool} {n : Nat}
    {calls : Calls (ZMod p)} {zs : List (Assigned (ZMod p))}
    (h : c.copyCheck k region a n strict = .ok (calls, zs)) :
    ∃ more, c.rangeCheck k region ⟨⟨region, 0, .advice c.runningSum⟩, a.value⟩ n strict = .ok (more, zs) ∧
      calls = [.advice c.runningSum 0 a.value, .equal ⟨region, 0, .advice c.runningSum⟩ a.cell] ++ more := by
  unfold RangeCheck.copyCheck copyAdvice at h
  obtain ⟨⟨more, zs'⟩, h1, h2⟩ := bind_ok h
  simp only [pure, Except.pure, Except.ok.injEq, Prod.mk.injEq] at h2
  exact ⟨more, by rw [h1, h2.2], h2.1.symm⟩

theorem capacity [Fact p.Prime] {n k : Nat} (h : n * k ≤ p.size - 1) : 2 ^ (k * n) ≤ p := by
  have hp : 0 < p := (Fact.out : p.Prime).pos
  have h1 : 0 < p.size := Nat.size_pos.2 hp
  rw [mul_comm]
  calc 2 ^ (n * k) ≤ 2 ^ (p.size - 1) := Nat.pow_le_pow_right (by norm_num) h
    _ ≤ p := Nat.lt_size.1 (by omega)

theorem two_pow_ne_zero [Fact p.Prime] {k : Nat} (hp : p ≠ 2) : (2 : ZMod p) ^ k ≠ 0 := by
  apply pow_ne_zero
  intro h
  have h' : ((2 : Nat) : ZMod p) = 0 := by exact_mod_cast h
  rw [ZMod.natCast_eq_zero_iff] at h'
  exact hp ((Nat.prime_dvd_prime_iff_eq Fact.out Nat.prime_two).1 h')

/-- The constraints of a short range check, after calls that enable nothing. -/
theorem short_sound [Fact p.Prime] {c : RangeCheck}
    (hd : c.qLookup ≠ c.qRunning ∧ c.qRunning ≠ c.qBitshift ∧ c.qLookup ≠ c.qBitshift) {k region : Nat}
    {e : Assigned (ZMod p)} {numBits : Nat} (hnb : numBits ≤ k) {table : Nat → List (ZMod p)}
    (ht : IsTable k (table c.tableIdx)) {w : Content (ZMod p)} {pre more : Calls (ZMod p)}
    (hfit : 2 ^ (2 * k - numBits) ≤ p) (h : c.shortRangeCheck k e numBits = .ok more)
    (hpre : ∀ s o, Call.enable s o ∉ pre) (hs : Sat (c.chip k) table w region (pre ++ more)) :
    (w region (.advice c.runningSum) ((0 : Nat) : Int)).val < 2 ^ numBits := by
  obtain ⟨_, h1, h⟩ := bind_ok h
  have h2 : (2 : ZMod p) ^ numBits ≠ 0 := by simpa using assert_ok.1 h1
  simp only [pure, Except.pure, Except.ok.injEq] at h
  subst h
  have hmem : ∀ s o, Call.enable s o ∈ pre ++ [Call.enable c.qLookup 0, .enable c.qLookup 1, .enable c.qBitshift 1,
      .advice c.runningSum 1 (e.value.map fun x => x * (2 : ZMod p) ^ (k - numBits)),
      .constant c.runningSum 2 (some ((2 : ZMod p) ^ numBits)⁻¹)] ↔
      (s = c.qLookup ∧ (o = 0 ∨ o = 1)) ∨ (s = c.qBitshift ∧ o = 1) := by
    intro s o
    simp only [List.mem_append, hpre, false_or, List.mem_cons, Call.enable.injEq, reduceCtorEq, List.not_mem_nil, or_false]
    tauto
  have hlook : ∀ o : Nat, o = 0 ∨ o = 1 → ∃ m : Nat, m < 2 ^ k ∧ w region (.advice c.runningSum) (o : Int) = m := by
    intro o ho
    have h3 := hs.lookups _ (List.mem_singleton.2 rfl) (o : Int)
    obtain ⟨_, e2⟩ := eval_lookup (c := c) (k := k) (sel := enabled (pre ++ [Call.enable c.qLookup 0, .enable c.qLookup 1,
      .enable c.qBitshift 1, .advice c.runningSum 1 (e.value.map fun x => x * (2 : ZMod p) ^ (k - numBits)),
      .constant c.runningSum 2 (some ((2 : ZMod p) ^ numBits)⁻¹)])) (w := w region) (row := (o : Int))
      _ (List.mem_singleton.2 rfl)
    rw [e2] at h3
    obtain ⟨m, hm, h4⟩ := (ht _).1 h3
    rw [enabled_iff.2 ⟨o, (hmem _ _).2 (Or.inl ⟨rfl, ho⟩), rfl⟩, enabled_false (s := c.qRunning)] at h4
    · refine ⟨m, hm, ?_⟩
      rw [← h4]
      simp
    · intro o' ho' _
      rcases (hmem _ _).1 ho' with ⟨h, _⟩ | ⟨h, _⟩
      · exact hd.1 h.symm
      · exact hd.2.1 h
  obtain ⟨n, hn, hn'⟩ := hlook 0 (Or.inl rfl)
  obtain ⟨m, hm, hm'⟩ := hlook 1 (Or.inr rfl)
  have hgate := sat_gate hs (s := c.qBitshift) (List.mem_singleton.2 rfl) (List.mem_singleton.2 rfl)
    ((hmem c.qBitshift 1).2 (Or.inr ⟨rfl, rfl⟩))
  simp only [eval_sub, eval_mul, eval_scaled, eval_advice] at hgate
  have hconst : some ((2 : ZMod p) ^ numBits)⁻¹ = some (w region (.advice c.runningSum) ((2 : Nat) : Int)) :=
    hs.enforced (Call.constant c.runningSum 2 (some ((2 : ZMod p) ^ numBits)⁻¹)) (by simp)
  have hc : ((2 : ZMod p) ^ numBits)⁻¹ = w region (.advice c.runningSum) 2 := by simpa using hconst
  have hn0 : w region (.advice c.runningSum) 0 = n := by simpa using hn'
  have hm0 : w region (.advice c.runningSum) 1 = m := by simpa using hm'
  norm_num at hgate
  rw [← hc, hn0, hm0] at hgate
  have hpow : (2 : ZMod p) ^ k = 2 ^ (k - numBits) * 2 ^ numBits := by rw [← pow_add]; congr 1; omega
  have heq : ((n * 2 ^ (k - numBits) : Nat) : ZMod p) = (m : ZMod p) := by
    push_cast
    rw [hpow] at hgate
    have h5 : (n : ZMod p) * (2 ^ (k - numBits) * 2 ^ numBits) * (2 ^ numBits)⁻¹ = n * 2 ^ (k - numBits) := by
      field_simp
    rw [h5] at hgate
    linear_combination hgate
  have hlt : n * 2 ^ (k - numBits) < p := by
    calc n * 2 ^ (k - numBits) < 2 ^ k * 2 ^ (k - numBits) := Nat.mul_lt_mul_of_pos_right hn (by positivity)
      _ = 2 ^ (2 * k - numBits) := by rw [← pow_add]; congr 1; omega
      _ ≤ p := hfit
  have hmp : m < p := by
    calc m < 2 ^ k := hm
      _ ≤ 2 ^ (2 * k - numBits) := Nat.pow_le_pow_right (by norm_num) (by omega)
      _ ≤ p := hfit
  have hnat : n * 2 ^ (k - numBits) = m := by
    have := congrArg ZMod.val heq
    rwa [ZMod.val_natCast_of_lt hlt, ZMod.val_natCast_of_lt hmp] at this
  have hn2 : n < 2 ^ numBits := by
    have h6 : n * 2 ^ (k - numBits) < 2 ^ numBits * 2 ^ (k - numBits) := by
      rw [hnat, ← pow_add]
      calc m < 2 ^ k := hm
        _ = _ := by congr 1; omega
    exact Nat.lt_of_mul_lt_mul_right h6
  rw [hn', ZMod.val_natCast_of_lt (lt_of_le_of_lt (Nat.le_mul_of_pos_right _ (by positivity)) hlt)]
  exact hn2

end Verif.Lemmas.Gadget
