import Verif.Lemmas.Gadget

namespace Verif.Lemmas.Gadget

open Verif.FloorPlanner (Call)
open Verif.Gadget Verif.Spec.Gadget

variable {p : Nat}

theorem sumCells_length (region col offset : Nat) (inv : ZMod p) : ∀ (words : List (Option (ZMod p))) (i : Nat)
    (z : Assigned (ZMod p)), (sumCells region col offset inv i z words).length = words.length
  | [], _, _ => rfl
  | _ :: words, i, z => by simp [sumCells, sumCells_length region col offset inv words]

theorem sumCells_cell (region col offset : Nat) (inv : ZMod p) : ∀ (words : List (Option (ZMod p))) (i : Nat)
    (z : Assigned (ZMod p)) (j : Nat) (h : j < (sumCells region col offset inv i z words).length),
    ((sumCells region col offset inv i z words)[j]).cell = ⟨region, offset + i + 1 + j, .advice col⟩
  | [], _, _, _, h => by simp [sumCells] at h
  | _ :: words, i, z, 0, _ => by simp [sumCells]
  | _ :: words, i, z, j + 1, h => by
    simp only [sumCells, List.getElem_cons_succ]
    rw [sumCells_cell region col offset inv words (i + 1)]
    congr 1; omega

/-- The cells that follow known values, from words that are known. -/
theorem sumCells_value (region col offset : Nat) (inv : ZMod p) : ∀ (ks : List Nat) (i : Nat)
    (z : Assigned (ZMod p)) (x : ZMod p), z.value = some x →
    ∀ (j : Nat) (h : j < ((z :: sumCells region col offset inv i z (ks.map fun (n : Nat) => some (n : ZMod p)))).length)
      (h' : j < ks.length),
      ∃ y, ((z :: sumCells region col offset inv i z (ks.map fun (n : Nat) => some (n : ZMod p)))[j]).value = some y ∧
        ∃ h'' : j + 1 < (z :: sumCells region col offset inv i z (ks.map fun (n : Nat) => some (n : ZMod p))).length,
        ((z :: sumCells region col offset inv i z (ks.map fun (n : Nat) => some (n : ZMod p)))[j + 1]).value =
          some ((y - (ks[j] : ZMod p)) * inv)
  | [], _, _, _, _, _, _, h' => by simp at h'
  | k :: ks, i, z, x, hz, 0, _, _ => by
    refine ⟨x, by simpa using hz, by simp [sumCells], ?_⟩
    simp [sumCells, hz, bind, Option.bind]
  | k :: ks, i, z, x, hz, j + 1, h, h' => by
    have ih := sumCells_value region col offset inv ks (i + 1)
      ⟨⟨region, offset + i + 1, .advice col⟩, some ((x - (k : ZMod p)) * inv)⟩ _ rfl j
      (by simpa [sumCells, hz, bind, Option.bind, sumCells_length] using h) (by simpa using h')
    obtain ⟨y, h1, h2, h3⟩ := ih
    refine ⟨y, ?_, ?_, ?_⟩
    · simpa [sumCells, hz, bind, Option.bind] using h1
    · simpa [sumCells, hz, bind, Option.bind] using h2
    · simpa [sumCells, hz, bind, Option.bind] using h3

theorem transposeVec_length {A : Type} {v : Option (List A)} {n : Nat} {l : List (Option A)}
    (h : transposeVec v n = .ok l) : l.length = n := by
  cases v with
  | none => simp only [transposeVec, Except.ok.injEq] at h; subst h; simp
  | some a =>
    simp only [transposeVec, bind, Except.bind] at h
    split at h
    · cases h
    · rename_i hx
      simp only [pure, Except.pure, Except.ok.injEq] at h
      subst h
      have := assert_ok.1 hx
      simpa using this

theorem transposeVec_some {A : Type} {a : List A} {n : Nat} {l : List (Option A)}
    (h : transposeVec (some a) n = .ok l) : a.length = n ∧ l = a.map some := by
  simp only [transposeVec, bind, Except.bind] at h
  split at h
  · cases h
  · rename_i hx
    simp only [pure, Except.pure, Except.ok.injEq] at h
    exact ⟨by simpa using assert_ok.1 hx, h.symm⟩

theorem bind_ok {ε α β : Type} {x : Except ε α} {f : α → Except ε β} {b : β} (h : (x >>= f) = .ok b) :
    ∃ a, x = .ok a ∧ f a = .ok b := by
  cases x with
  | error e => cases h
  | ok a => exact ⟨a, rfl, h⟩

theorem ok_bind {ε α β : Type} {x : Except ε α} {f : α → Except ε β} {a : α} (h : x = .ok a)
    (h' : ∃ r, f a = .ok r) : ∃ r, (x >>= f) = .ok r := by
  subst h
  exact h'

/-- What a successful decomposition returns and calls. -/
theorem decompose_shape {c : RunningSum} {k region offset : Nat} {z0 : Assigned (ZMod p)} {strict : Bool}
    {wordBits n : Nat} {calls : Calls (ZMod p)} {zs : List (Assigned (ZMod p))}
    (h : c.decompose k region offset z0 strict wordBits n = .ok (calls, zs)) :
    k * n < wordBits + k ∧ (2 : ZMod p) ^ k ≠ 0 ∧ ∃ words : List (Option (ZMod p)), words.length = n ∧
      (∀ x, z0.value = some x → ∃ ks, decomposeWord x wordBits k = .ok ks ∧ ks.length = n ∧
        words = ks.map fun (m : Nat) => some (m : ZMod p)) ∧
      zs = z0 :: sumCells region c.z offset ((2 : ZMod p) ^ k)⁻¹ 0 z0 words ∧
      calls = (List.range n).map (fun idx => .enable c.qRangeCheck (offset + idx)) ++
        (sumCells region c.z offset ((2 : ZMod p) ^ k)⁻¹ 0 z0 words).map
          (fun a => .advice c.z a.cell.offset a.value) ++
        (if strict then [.equalConstant (zs.getLast?.getD z0).cell (some 0)] else []) := by
  unfold RunningSum.decompose at h
  obtain ⟨_, h1, h⟩ := bind_ok h
  obtain ⟨d, h2, h⟩ := bind_ok h
  obtain ⟨ws, h3, h⟩ := bind_ok h
  obtain ⟨_, h4, h⟩ := bind_ok h
  obtain ⟨_, h5, h⟩ := bind_ok h
  simp only [pure, Except.pure, Except.ok.injEq, Prod.mk.injEq] at h
  obtain ⟨h6, h7⟩ := h
  refine ⟨by simpa using assert_ok.1 h1, by simpa using assert_ok.1 h4,
    ws.map (fun w => w.map fun (n : Nat) => (n : ZMod p)), ?_, ?_, h7.symm, ?_⟩
  · rw [List.length_map, transposeVec_length h3]
  · intro x hx
    rw [hx] at h2
    simp only [onKnown, Except.map] at h2
    cases hd : decomposeWord x wordBits k with
    | error e => rw [hd] at h2; cases h2
    | ok ks =>
      rw [hd] at h2
      simp only [Except.ok.injEq] at h2
      subst h2
      obtain ⟨h8, rfl⟩ := transposeVec_some h3
      exact ⟨ks, rfl, h8, by simp⟩
  · rw [← h6, ← h7]

theorem zs_cells {region col offset : Nat} {inv : ZMod p} {z0 : Assigned (ZMod p)}
    {words : List (Option (ZMod p))} (h0 : z0.cell = ⟨region, offset, .advice col⟩) (i : Nat)
    (h : i < (z0 :: sumCells region col offset inv 0 z0 words).length) :
    ((z0 :: sumCells region col offset inv 0 z0 words)[i]).cell = ⟨region, offset + i, .advice col⟩ := by
  rcases i with _ | i
  · simpa using h0
  · rw [List.getElem_cons_succ, sumCells_cell]
    congr 1; omega

theorem last_cell {region col offset : Nat} {inv : ZMod p} {z0 : Assigned (ZMod p)}
    {words : List (Option (ZMod p))} (h0 : z0.cell = ⟨region, offset, .advice col⟩) :
    (((z0 :: sumCells region col offset inv 0 z0 words).getLast?).getD z0).cell =
      ⟨region, offset + words.length, .advice col⟩ := by
  rw [List.getLast?_eq_getElem?]
  have hl : (z0 :: sumCells region col offset inv 0 z0 words).length = words.length + 1 := by
    simp [sumCells_length]
  rw [hl, Nat.add_sub_cancel, List.getElem?_eq_getElem (by omega), Option.getD_some, zs_cells h0]

/-- Where the chip's condition on running sums is in force. -/
theorem decompose_sound [Fact p.Prime] {c : RunningSum} {k region offset : Nat} {z0 : Assigned (ZMod p)} {strict : Bool}
    {wordBits n : Nat} {calls more : Calls (ZMod p)} {zs : List (Assigned (ZMod p))} {chip : Chip (ZMod p)}
    {table : Nat → List (ZMod p)} {w : Content (ZMod p)}
    (hchip : c.chip k = .ok chip) (h0 : z0.cell = ⟨region, offset, .advice c.z⟩)
    (h : c.decompose k region offset z0 strict wordBits n = .ok (calls, zs))
    (hs : Sat chip table w region (more ++ calls)) :
    zs.length = n + 1 ∧ (∀ i (hi : i < zs.length), w.at zs[i].cell = w region (.advice c.z) ((offset + i : Nat) : Int)) ∧
    (∀ i < n, ∃ m : Nat, m < 2 ^ k ∧ w region (.advice c.z) ((offset + i : Nat) : Int) -
      w region (.advice c.z) ((offset + (i + 1) : Nat) : Int) * 2 ^ k = m) ∧
    (strict = true → w region (.advice c.z) ((offset + n : Nat) : Int) = 0) := by
  obtain ⟨_, _, words, hw, _, rfl, hcalls⟩ := decompose_shape h
  refine ⟨by simp [sumCells_length, hw], ?_, ?_, ?_⟩
  · intro i hi
    rw [zs_cells h0 i hi]
    rfl
  · intro i hi
    obtain ⟨_, _, hc⟩ := bind_ok hchip
    simp only [pure, Except.pure, Except.ok.injEq] at hc
    have hmem : Call.enable c.qRangeCheck (offset + i) ∈ more ++ calls := by
      rw [hcalls]
      simp only [List.mem_append, List.mem_map, List.mem_range]
      exact Or.inr (Or.inl (Or.inl ⟨i, hi, rfl⟩))
    have := sat_gate hs (s := c.qRangeCheck) (by rw [← hc]; exact List.mem_singleton.2 rfl)
      (List.mem_singleton.2 rfl) hmem
    rw [eval_rangeCheck _ _ _ _ (by positivity)] at this
    obtain ⟨m, hm, h1⟩ := this
    refine ⟨m, hm, ?_⟩
    rw [← h1]
    simp only [eval_sub, eval_advice, eval_scaled, add_zero]
    push_cast
    rw [add_assoc]
  · intro hstrict
    have hmem : Call.equalConstant (((z0 :: sumCells region c.z offset ((2 : ZMod p) ^ k)⁻¹ 0 z0 words).getLast?).getD
        z0).cell (some 0) ∈ more ++ calls := by
      rw [hcalls, hstrict]
      simp
    have := hs.enforced _ hmem
    rw [last_cell h0, hw] at this
    simp only [Enforced, Option.some.injEq] at this
    exact this.symm

theorem chunks_key {k : Nat} : ∀ (ks : List Nat) (f : Nat → ZMod p),
    (∀ i (hi : i < ks.length), f i - f (i + 1) * 2 ^ k = ((ks[i] : Nat) : ZMod p)) →
    f ks.length * 2 ^ (k * ks.length) = f 0 - (ofChunks k ks : ZMod p)
  | [], f, _ => by simp [ofChunks]
  | a :: ks, f, hf => by
    have h1 := chunks_key ks (fun i => f (i + 1)) (fun i hi => by
      have := hf (i + 1) (by simpa using hi)
      rwa [List.getElem_cons_succ] at this)
    have h2 := hf 0 (by simp)
    simp only [List.getElem_cons_zero, zero_add] at h2 h1
    have hpow : (2 : ZMod p) ^ (k * (ks.length + 1)) = 2 ^ (k * ks.length) * 2 ^ k := by rw [← pow_add]; ring_nf
    rw [List.length_cons, hpow, ofChunks]
    push_cast
    linear_combination 2 ^ k * h1 - h2

/-- The gate holds for what an honest prover assigns. -/
theorem decompose_gate [Fact p.Prime] {c : RunningSum} {k region offset : Nat} {z0 : Assigned (ZMod p)} {strict : Bool}
    {wordBits n : Nat} {calls : Calls (ZMod p)} {zs : List (Assigned (ZMod p))}
    {w : Content (ZMod p)} {x : ZMod p}
    (hk : 0 < k) (hk8 : k ≤ 8) (hwb : wordBits ≤ 256)
    (hx : z0.value = some x) (hx' : x = w region (.advice c.z) (offset : Int))
    (h : c.decompose k region offset z0 strict wordBits n = .ok (calls, zs))
    (hf : ∀ o v, Call.advice c.z o v ∈ calls → v = some (w region (.advice c.z) o)) :
    (∀ i < n, ∃ m : Nat, m < 2 ^ k ∧ w region (.advice c.z) ((offset + i : Nat) : Int) -
      w region (.advice c.z) ((offset + (i + 1) : Nat) : Int) * 2 ^ k = m) ∧
    w region (.advice c.z) ((offset + n : Nat) : Int) * 2 ^ (k * n) = x - ((x.val % 2 ^ wordBits : Nat) : ZMod p) := by
  obtain ⟨_, h2k, words, hw, hwords, rfl, hcalls⟩ := decompose_shape h
  obtain ⟨ks, hks, hkl, rfl⟩ := hwords x hx
  obtain ⟨ks', hks', -, hlt, hsum⟩ := decomposeWord_ok x hk hk8 hwb
  rw [hks] at hks'
  cases hks'
  set zs := z0 :: sumCells region c.z offset ((2 : ZMod p) ^ k)⁻¹ 0 z0 (ks.map fun (m : Nat) => some (m : ZMod p)) with hzs
  have hzl : zs.length = n + 1 := by rw [hzs]; simp [sumCells_length, hkl]
  have hval : ∀ i (hi : i < zs.length), zs[i].value = some (w region (.advice c.z) ((offset + i : Nat) : Int)) := by
    intro i hi
    rcases i with _ | i
    · simp only [hzs, List.getElem_cons_zero, hx, hx']
      simp
    · apply hf
      rw [hcalls, List.mem_append, List.mem_append]
      left; right
      rw [List.mem_map]
      have hi' : i < (sumCells region c.z offset ((2 : ZMod p) ^ k)⁻¹ 0 z0 (ks.map fun (m : Nat) => some (m : ZMod p))).length := by
        simpa [hzs] using hi
      refine ⟨_, List.getElem_mem hi', ?_⟩
      rw [sumCells_cell]
      simp only [hzs, List.getElem_cons_succ]
      congr 1; omega
  have hstep : ∀ i (hi : i < n), w region (.advice c.z) ((offset + i : Nat) : Int) -
      w region (.advice c.z) ((offset + (i + 1) : Nat) : Int) * 2 ^ k = (ks[i]'(by omega) : ZMod p) := by
    intro i hi
    obtain ⟨y, h1, h2, h3⟩ := sumCells_value region c.z offset ((2 : ZMod p) ^ k)⁻¹ ks 0 z0 x hx i
      (by rw [← hzs]; omega) (by omega)
    have e1 := hval i (by omega)
    have e2 := hval (i + 1) (by omega)
    rw [h1] at e1
    rw [h3] at e2
    simp only [Option.some.injEq] at e1 e2
    rw [← e2, ← e1, mul_assoc, inv_mul_cancel₀ h2k]
    ring
  refine ⟨fun i hi => ⟨ks[i]'(by omega), hlt _ (List.getElem_mem _), hstep i hi⟩, ?_⟩
  have := chunks_key (k := k) ks (fun i => w region (.advice c.z) ((offset + i : Nat) : Int)) (fun i hi => hstep i (by omega))
  rw [hkl, hsum] at this
  rw [this, hx']
  simp

theorem copy_split {c : RunningSum} {k region offset : Nat} {a : Assigned (ZMod p)} {strict : Bool} {wordBits n : Nat}
    {calls : Calls (ZMod p)} {zs : List (Assigned (ZMod p))}
    (h : c.copy k region offset a strict wordBits n = .ok (calls, zs)) :
    ∃ more, c.decompose k region offset ⟨⟨region, offset, .advice c.z⟩, a.value⟩ strict wordBits n = .ok (more, zs) ∧
      calls = [.advice c.z offset a.value, .equal ⟨region, offset, .advice c.z⟩ a.cell] ++ more := by
  unfold RunningSum.copy copyAdvice at h
  obtain ⟨⟨more, zs'⟩, h1, h2⟩ := bind_ok h
  simp only [pure, Except.pure, Except.ok.injEq, Prod.mk.injEq] at h2
  exact ⟨more, by rw [h1, h2.2], h2.1.symm⟩

end Verif.Lemmas.Gadget
