import Verif.Lemmas.Gates
import Verif.Lemmas.Word

/-! All gates of the circuit in one row (helper for the property theorems). -/

namespace Verif

/-- The equations all gates impose on one row. -/
structure Rules (n : Nat) (g : Grid) (row : Nat) : Prop where
  bClk : g.selector 3 row = true → g.advice 0 row = 0
  bIp : g.selector 3 row = true → g.advice 2 row = 0
  bMp : g.selector 3 row = true → g.advice 4 row = 0
  bMv : g.selector 3 row = true → g.advice 5 row = 0
  p0 : g.selector 2 row = true → g.advice 0 (nxt n row) - g.advice 0 row - 1 = 0
  c0 : g.selector 1 row = true → g.advice 5 row * (g.advice 5 row * g.advice 6 row - 1) = 0
  c1 : g.selector 1 row = true → g.advice 6 row * (g.advice 5 row * g.advice 6 row - 1) = 0
  p1 : g.selector 2 row = true → polyP1 (g.advice 1 row) (g.advice 2 row)
    (g.advice 2 (nxt n row)) (g.advice 5 row) (g.advice 6 row) (g.advice 3 row) = 0
  p2 : g.selector 2 row = true →
    polyP2 (g.advice 1 row) (g.advice 4 row) (g.advice 4 (nxt n row)) = 0
  p3 : g.selector 2 row = true →
    polyP3 256 (g.advice 1 row) (g.advice 5 row) (g.advice 5 (nxt n row)) = 0
  m0 : g.selector 6 row = true → (g.advice 12 (nxt n row) - g.advice 12 row - 1) *
    (g.advice 12 (nxt n row) - g.advice 12 row) = 0
  m1 : g.selector 6 row = true → (g.advice 12 (nxt n row) - g.advice 12 row - 1) *
    ((g.advice 13 row - g.advice 13 (nxt n row)) *
      (g.advice 11 (nxt n row) - g.advice 11 row - 1)) = 0
  m2 : g.selector 6 row = true →
    (g.advice 12 (nxt n row) - g.advice 12 row) * g.advice 13 (nxt n row) = 0
  i0 : g.selector 11 row = true → (g.advice 15 (nxt n row) - g.advice 15 row) *
    (g.advice 15 (nxt n row) - g.advice 15 row - 1) = 0
  i1 : g.selector 11 row = true → (g.advice 15 (nxt n row) - g.advice 15 row - 1) *
    (g.advice 16 (nxt n row) - g.advice 16 row) = 0
  i2 : g.selector 11 row = true → (g.advice 15 (nxt n row) - g.advice 15 row - 1) *
    (g.advice 17 (nxt n row) - g.advice 17 row) = 0
  memPrp : g.selector 7 row = true → g.advice 14 (nxt n row) - g.advice 14 row *
    factor g.challenge (0, 1, 2, 3) (g.advice 11 row) (g.advice 12 row) (g.advice 13 row) = 0
  procMemPrp : g.selector 4 row = true → g.advice 7 (nxt n row) - g.advice 7 row *
    factor g.challenge (0, 1, 2, 3) (g.advice 0 row) (g.advice 4 row) (g.advice 5 row) = 0
  procInstPrp : g.selector 4 row = true → g.advice 8 (nxt n row) - g.advice 8 row *
    factor g.challenge (4, 5, 6, 7) (g.advice 2 row) (g.advice 1 row) (g.advice 3 row) = 0
  procOut : g.selector 5 row = true →
    desel PUTCHAR (g.advice 1 row) * (g.advice 9 (nxt n row) -
      (g.advice 9 row * g.challenge 9 + g.advice 5 (rotate n row 0))) +
    (g.advice 1 row - frOfByte PUTCHAR) * (g.advice 9 (nxt n row) - g.advice 9 row) = 0
  procIn : g.selector 5 row = true →
    desel GETCHAR (g.advice 1 row) * (g.advice 10 (nxt n row) -
      (g.advice 10 row * g.challenge 10 + g.advice 5 (nxt n row))) +
    (g.advice 1 row - frOfByte GETCHAR) * (g.advice 10 (nxt n row) - g.advice 10 row) = 0
  instRs : g.selector 9 row = true →
    (g.advice 15 (nxt n row) - g.advice 15 row) *
      (g.advice 19 (nxt n row) - (g.advice 19 row * g.challenge 8 + g.advice 16 row)) +
    (g.advice 15 (nxt n row) - g.advice 15 row - 1) *
      (g.advice 19 (nxt n row) - g.advice 19 row) = 0
  instPrp : g.selector 8 row = true →
    (g.advice 15 (nxt n row) - g.advice 15 row - 1) *
      (g.advice 18 (nxt n row) - g.advice 18 row *
        factor g.challenge (4, 5, 6, 7) (g.advice 15 row) (g.advice 16 row) (g.advice 17 row)) +
    (g.advice 15 row - g.advice 15 (nxt n row)) *
      (g.advice 18 row - g.advice 18 (nxt n row)) = 0
  instAdhoc : g.selector 10 row = true →
    g.advice 18 row - g.advice 18 (prv n row) *
      factor g.challenge (4, 5, 6, 7) (g.advice 15 (prv n row)) (g.advice 16 (prv n row))
        (g.advice 17 (prv n row)) = 0
  outRs : g.selector 12 row = true →
    g.advice 21 (nxt n row) - (g.advice 21 row * g.challenge 9 + g.advice 20 row) = 0
  inRs : g.selector 13 row = true →
    g.advice 24 (nxt n row) - (g.advice 24 row * g.challenge 10 + g.advice 22 row) = 0
  progRs : g.selector 14 row = true →
    g.advice 27 (nxt n row) - (g.advice 27 row * g.challenge 8 + g.advice 25 row) = 0

theorem gates_iff_row {n row : Nat} {g : Grid} (h : row < n) :
    (∀ gate ∈ mainCS.gates, ∀ p ∈ gate, p.eval n g row = 0) ↔ Rules n g row := by
  have e : (∀ gate ∈ mainCS.gates, ∀ p ∈ gate, p.eval n g row = 0) ↔
      ∀ gate ∈ mainCS.gates, Holds n g row gate := Iff.rfl
  rw [e, mainCS_gates]
  simp only [List.mem_cons, List.not_mem_nil, or_false, forall_eq_or_imp, forall_eq,
    gateB_holds _ h, gateP0_holds _ h, gateC0_holds _ h, gateC1_holds _ h, gateP1_holds _ h,
    gateP2_holds _ h, gateP3_holds _ h, gateM0_holds _ h, gateM1_holds _ h, gateM2_holds _ h,
    gateI0_holds _ h, gateI12_holds _ h, gatePrp_holds _ h, gateProcRs_holds _ h,
    gateInstRs_holds _ h, gateInstPrp_holds _ h, gateInstAdhoc_holds _ h, gateRs_holds _ h]
  constructor
  · rintro ⟨h1, h2, h3, h4, h5, h6, h7, h8, h9, h10, h11, h12, h13, h14, h15, h16, h17, h18, h19,
      h20, h21, h22, h23, h24, h25, h26, h27⟩
    exact ⟨h1, h2, h3, h4, h5, h6, h7, h8, h9, h10, h11, h12, h13, h14, h15, h16, h17, h18, h19,
      h20, h21, h22, h23, h24, h25, h26, h27⟩
  · rintro ⟨h1, h2, h3, h4, h5, h6, h7, h8, h9, h10, h11, h12, h13, h14, h15, h16, h17, h18, h19,
      h20, h21, h22, h23, h24, h25, h26, h27⟩
    exact ⟨h1, h2, h3, h4, h5, h6, h7, h8, h9, h10, h11, h12, h13, h14, h15, h16, h17, h18, h19,
      h20, h21, h22, h23, h24, h25, h26, h27⟩

theorem gates_iff {n : Nat} {g : Grid} :
    (∀ gate ∈ mainCS.gates, ∀ p ∈ gate, ∀ row, row < n → p.eval n g row = 0) ↔
      ∀ row, row < n → Rules n g row := by
  constructor
  · intro h row hr
    exact (gates_iff_row hr).1 (fun gate hg p hp => h gate hg p hp row hr)
  · intro h gate hg p hp row hr
    exact (gates_iff_row hr).2 (h row hr) gate hg p hp

theorem mainCS_lookups : mainCS.lookups =
    [⟨[.selector ⟨0, false⟩ * .advice 5 0], [.fixed 0 0]⟩] := by decide +kernel

theorem usable_lt {n row : Nat} (h : row < mainCS.usableRows n) : row < n := by
  unfold CS.usableRows at h; omega

/-- The lookup of the circuit. -/
theorem lookups_iff {n : Nat} {g : Grid} :
    (∀ l ∈ mainCS.lookups, ∀ row, row < mainCS.usableRows n → ∃ row', row' < mainCS.usableRows n ∧
      l.input.map (fun e => e.eval n g row) = l.table.map (fun e => e.eval n g row')) ↔
    ∀ row, row < mainCS.usableRows n → ∃ row', row' < mainCS.usableRows n ∧
      (if g.selector 0 row then 1 else 0) * g.advice 5 row = g.fixed 0 row' := by
  rw [mainCS_lookups]
  simp only [List.mem_singleton, forall_eq, List.map_cons, List.map_nil, List.cons.injEq, and_true,
    eval_mul, eval_selector, eval_advice, eval_fixed]
  constructor
  · intro h row hr
    obtain ⟨r', h1, h2⟩ := h row hr
    rw [rotate_zero (usable_lt hr), rotate_zero (usable_lt h1)] at h2
    exact ⟨r', h1, h2⟩
  · intro h row hr
    obtain ⟨r', h1, h2⟩ := h row hr
    refine ⟨r', h1, ?_⟩
    rw [rotate_zero (usable_lt hr), rotate_zero (usable_lt h1)]
    exact h2

theorem mainCS_blinding : mainCS.blindingFactors = 5 := by decide +kernel
theorem mainCS_usable (n : Nat) : mainCS.usableRows n = n - 6 := by
  unfold CS.usableRows; rw [mainCS_blinding]
theorem mainCS_minimum : mainCS.minimumRows = 8 := by
  unfold CS.minimumRows; rw [mainCS_blinding]

/-- The deselectors on the opcodes. -/
theorem desel_opcode : ∀ op ∈ OPCODES, ∀ v ∈ OPCODES, desel op (frOfByte v) ≠ 0 ↔ v = op := by
  decide +kernel

theorem frOfByte_inj {a b : UInt8} : frOfByte a = frOfByte b ↔ a = b := by
  unfold frOfByte
  have ha := a.toNat_lt
  have hb := b.toNat_lt
  rw [Fr.cast_inj (lt_P_of_lt (k := 8) ha (by norm_num)) (lt_P_of_lt (k := 8) hb (by norm_num))]
  exact UInt8.toNat_inj

theorem desel_zero {op v : UInt8} (ho : op ∈ OPCODES) (hv : v ∈ OPCODES) (h : v ≠ op) :
    desel op (frOfByte v) = 0 := by
  by_contra hne
  exact h ((desel_opcode op ho v hv).1 hne)

end Verif
