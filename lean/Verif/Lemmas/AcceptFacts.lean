import Verif.Lemmas.GenuineRows
import Verif.Lemmas.HonestCircuit
import Verif.Lemmas.Arguments
import Verif.Spec.Accepts
import Verif.Props.Gates

/-! What an accepted assignment satisfies, in closed form (helper for the property theorems). -/

namespace Verif

open BF Spec Props

theorem run_prod {A F : Nat → Fr} {len : Nat} (h : ∀ i, i < len → A (i + 1) = A i * F i) :
    A len = A 0 * ((List.range len).map F).prod := by
  induction len with
  | zero => simp
  | succ len ih =>
    rw [h len (by omega), ih (fun i hi => h i (by omega)), List.range_succ, List.map_append,
      List.prod_append]
    simp [mul_assoc]

theorem run_prod_if {A F : Nat → Fr} {c : Nat → Prop} [DecidablePred c] {len : Nat}
    (h : ∀ i, i < len → A (i + 1) = if c i then A i * F i else A i) :
    A len = A 0 * ((List.range len).flatMap fun i => if c i then [F i] else []).prod := by
  induction len with
  | zero => simp
  | succ len ih =>
    rw [h len (by omega), ih (fun i hi => h i (by omega)), List.range_succ, List.flatMap_append,
      List.prod_append]
    by_cases hc : c len <;> simp [hc, mul_assoc]

theorem run_sum {A v : Nat → Fr} {gamma : Fr} {len : Nat}
    (h : ∀ i, i < len → A (i + 1) = A i * gamma + v i) :
    A len = A 0 * gamma ^ len + runningSum gamma ((List.range len).map v) := by
  induction len with
  | zero => simp [runningSum]
  | succ len ih =>
    rw [h len (by omega), ih (fun i hi => h i (by omega)), List.range_succ, List.map_append,
      List.map_singleton, runningSum_snoc, pow_succ]
    ring

theorem run_sum_if {A v : Nat → Fr} {gamma : Fr} {c : Nat → Prop} [DecidablePred c] {len : Nat}
    (h : ∀ i, i < len → A (i + 1) = if c i then A i * gamma + v i else A i) :
    A len = A 0 *
        gamma ^ ((List.range len).flatMap fun i => if c i then [v i] else []).length +
      runningSum gamma ((List.range len).flatMap fun i => if c i then [v i] else []) := by
  induction len with
  | zero => simp [runningSum]
  | succ len ih =>
    rw [h len (by omega), ih (fun i hi => h i (by omega)), List.range_succ, List.flatMap_append]
    by_cases hc : c len
    · simp only [hc, if_true, List.flatMap_cons, List.flatMap_nil, List.append_nil]
      rw [runningSum_snoc, List.length_append, List.length_singleton, pow_succ]
      ring
    · simp [hc]

/-- Three columns side by side. -/
def triples (g : Grid) (a b c len : Nat) : List (Fr × Fr × Fr) :=
  (List.range len).map fun i => (g.advice a i, g.advice b i, g.advice c i)

/-- One column. -/
def column (g : Grid) (c len : Nat) : List Fr := (List.range len).map fun i => g.advice c i

/-- The rows of the instruction table that take part in the product. -/
def stayTriples (g : Grid) (len : Nat) : List (Fr × Fr × Fr) :=
  ((List.range (len - 1)).flatMap fun i => if g.advice 15 (i + 1) = g.advice 15 i then
    [(g.advice 15 i, g.advice 16 i, g.advice 17 i)] else []) ++
  [(g.advice 15 (len - 1), g.advice 16 (len - 1), g.advice 17 (len - 1))]

theorem triples_factor (g : Grid) (a b c len : Nat) (al d e f : Fr) :
    tableProduct al d e f (triples g a b c len) = ((List.range len).map fun i =>
      al - d * g.advice a i - e * g.advice b i - f * g.advice c i).prod := by
  unfold tableProduct triples
  rw [List.map_map]; rfl

theorem stayTriples_factor (g : Grid) (len : Nat) (al d e f : Fr) :
    tableProduct al d e f (stayTriples g len) =
      ((List.range (len - 1)).flatMap fun i => if g.advice 15 (i + 1) = g.advice 15 i then
        [al - d * g.advice 15 i - e * g.advice 16 i - f * g.advice 17 i] else []).prod *
      (al - d * g.advice 15 (len - 1) - e * g.advice 16 (len - 1) - f * g.advice 17 (len - 1)) := by
  unfold tableProduct stayTriples
  rw [List.map_append, List.prod_append, List.map_flatMap]
  congr 1
  · congr 2
    funext i
    by_cases h : g.advice 15 (i + 1) = g.advice 15 i
    · rw [if_pos h, if_pos h]; rfl
    · rw [if_neg h, if_neg h]; rfl
  · simp [rowFactor]

theorem changes_ne (ip ci : Nat → Fr) (len : Nat) : changes ip ci len =
    (List.range len).flatMap fun i => if ip (i + 1) ≠ ip i then [ci i] else [] := by
  unfold changes
  apply List.flatMap_congr
  intro i _
  by_cases hc : ip (i + 1) = ip i
  · rw [if_pos hc, if_neg (not_not.2 hc)]
  · rw [if_neg hc, if_pos hc]

/-- Everything an accepted assignment satisfies. -/
structure Facts (n : Nat) (mx : Matrix) (code input : List Fr) (g : Grid) : Prop where
  roomP : mx.processor.length < n - 6
  roomM : mx.memory.length < n - 6
  roomI : mx.instruction.length < n - 6
  roomO : mx.output.length < n - 6
  roomN : mx.input.length < n - 6
  roomG : mx.program.length < n - 6
  start : (row g 0).clk = 0 ∧ (row g 0).ip = 0 ∧ (row g 0).mp = 0 ∧ (row g 0).mv = 0
  clk : ∀ i, i + 1 < mx.processor.length → (row g (i + 1)).clk = (row g i).clk + 1
  step : ∀ i, i + 1 < mx.processor.length → ∀ op ∈ OPCODES, (row g i).ci = frOfByte op →
    RowStep op (row g i) (row g (i + 1))
  byte : ∀ i, i < mx.processor.length → (row g i).mv.val < 256
  memStep : ∀ k, k + 1 < mx.memory.length →
    (g.advice 12 (k + 1) = g.advice 12 k ∧
      (g.advice 11 (k + 1) ≠ g.advice 11 k + 1 → g.advice 13 (k + 1) = g.advice 13 k)) ∨
    (g.advice 12 (k + 1) = g.advice 12 k + 1 ∧ g.advice 13 (k + 1) = 0)
  insStep : ∀ k, k + 1 < mx.instruction.length →
    (g.advice 15 (k + 1) = g.advice 15 k ∧ g.advice 16 (k + 1) = g.advice 16 k ∧
      g.advice 17 (k + 1) = g.advice 17 k) ∨ g.advice 15 (k + 1) = g.advice 15 k + 1
  memProd : g.advice 14 mx.memory.length = g.advice 14 0 *
    tableProduct (g.challenge 0) (g.challenge 1) (g.challenge 2) (g.challenge 3)
      (triples g 11 12 13 mx.memory.length)
  procMemProd : g.advice 7 mx.processor.length = g.advice 7 0 *
    tableProduct (g.challenge 0) (g.challenge 1) (g.challenge 2) (g.challenge 3)
      (triples g 0 4 5 mx.processor.length)
  procInsProd : g.advice 8 mx.processor.length = g.advice 8 0 *
    tableProduct (g.challenge 4) (g.challenge 5) (g.challenge 6) (g.challenge 7)
      (triples g 2 1 3 mx.processor.length)
  insProd : 0 < mx.instruction.length → g.advice 18 mx.instruction.length = g.advice 18 0 *
    tableProduct (g.challenge 4) (g.challenge 5) (g.challenge 6) (g.challenge 7)
      (stayTriples g mx.instruction.length)
  insSum : g.advice 19 (mx.instruction.length - 1) = g.advice 19 0 * g.challenge 8 ^
      (changes (g.advice 15) (g.advice 16) (mx.instruction.length - 1)).length +
    runningSum (g.challenge 8)
      (changes (g.advice 15) (g.advice 16) (mx.instruction.length - 1))
  progSum : g.advice 27 mx.program.length = g.advice 27 0 * g.challenge 8 ^ mx.program.length +
    runningSum (g.challenge 8) (column g 25 mx.program.length)
  outSum : g.advice 21 mx.output.length = g.advice 21 0 * g.challenge 9 ^ mx.output.length +
    runningSum (g.challenge 9) (column g 20 mx.output.length)
  inSum : g.advice 24 mx.input.length = g.advice 24 0 * g.challenge 10 ^ mx.input.length +
    runningSum (g.challenge 10) (column g 22 mx.input.length)
  procOut : (∀ i, i + 1 < mx.processor.length → ∃ op ∈ OPCODES, (row g i).ci = frOfByte op) →
    g.advice 9 (mx.processor.length - 1) = g.advice 9 0 *
        g.challenge 9 ^ (writesOf (row g) (mx.processor.length - 1)).length +
      runningSum (g.challenge 9) (writesOf (row g) (mx.processor.length - 1))
  procIn : (∀ i, i + 1 < mx.processor.length → ∃ op ∈ OPCODES, (row g i).ci = frOfByte op) →
    g.advice 10 (mx.processor.length - 1) = g.advice 10 0 *
        g.challenge 10 ^ (readsOf (row g) (mx.processor.length - 1)).length +
      runningSum (g.challenge 10) (readsOf (row g) (mx.processor.length - 1))
  copyMem : g.advice 7 mx.processor.length = g.advice 14 mx.memory.length
  copyIns : g.advice 8 mx.processor.length = g.advice 18 mx.instruction.length
  copyOut : g.advice 21 mx.output.length = g.advice 9 mx.processor.length
  copyIn : g.advice 24 mx.input.length = g.advice 10 mx.processor.length
  copyProg : g.advice 27 mx.program.length = g.advice 19 mx.instruction.length
  inpCells : ∀ i, i < mx.input.length → g.advice 22 i = input.getD i 0
  progCells : ∀ i, i < mx.program.length → g.advice 25 i = code.getD i 0

theorem desel_run {op v : UInt8} (ho : op ∈ OPCODES) (hv : v ∈ OPCODES) {x y z : Fr}
    (h : desel op (frOfByte v) * (x - y) + (frOfByte v - frOfByte op) * (x - z) = 0) :
    x = if frOfByte v = frOfByte op then y else z := by
  by_cases hc : v = op
  · subst hc
    rw [if_pos rfl]
    have := desel_self v hv
    rw [sub_self, zero_mul, add_zero, mul_eq_zero] at h
    exact sub_eq_zero.1 (h.resolve_left this)
  · rw [if_neg (fun e => hc (frOfByte_inj.1 e))]
    rw [desel_zero ho hv hc, zero_mul, zero_add, mul_eq_zero] at h
    exact sub_eq_zero.1 (h.resolve_left (fun e => hc (frOfByte_inj.1 (sub_eq_zero.1 e))))

theorem accepts_facts {n : Nat} {mx : Matrix} {code input : List Fr} {g : Grid}
    (h : Accepts n mx (publicInputs code input) g) : Facts n mx code input g := by
  obtain ⟨a, hsyn, hfix, hsel, hinst, hsat⟩ := h
  obtain ⟨g0, hg0⟩ := completion n a g.challenge (publicInputs code input)
  obtain ⟨as, vin, vcode, hf⟩ := filled hsyn hg0
  have hS : ∀ s r, g.selector s r = g0.selector s r := fun s r => by rw [hsel, hg0.selector]
  have hF : ∀ c r, r < n - 6 → g.fixed c r = g0.fixed c r := fun c r hr => by
    rw [hfix c r (by rw [mainCS_usable]; exact hr), hg0.fixed c r (by rw [mainCS_usable]; exact hr)]
  have hR := gates_iff.1 hsat.gates
  have hcopies := hsat.copies
  rw [synthesize_copies hsyn] at hcopies
  have hroom := hf.room
  have hP := hf.roomP
  have hM := hf.roomM
  have hI := hf.roomI
  have hO := hf.roomO
  have hN := hf.roomN
  have hG := hf.roomG
  have hnx : ∀ i, i < n - 6 → nxt n i = i + 1 := fun i hi => rotate_one (by omega)
  have htable : ByteTable n g := by
    intro r hr
    rw [mainCS_usable] at hr
    have e : g.fixed mainConfig.p.table r = g.fixed 0 r := rfl
    rw [e, hF 0 r hr, hf.fixed r hr]
    by_cases h256 : r < 256
    · rw [if_pos h256, Fr.val_cast (lt_P_of_lt (k := 8) (by omega) (by norm_num))]; exact h256
    · rw [if_neg h256]; simp
  have hbyte : ∀ i, i < mx.processor.length → (g.advice 5 i).val < 256 := by
    intro i hi
    obtain ⟨r', h1, h2⟩ := lookups_iff.1 hsat.lookups i (by rw [mainCS_usable]; omega)
    rw [hS, hf.procSel 0 (by omega), decide_eq_true hi] at h2
    simp only [if_true, one_mul] at h2
    rw [h2]
    exact htable r' h1
  have s2 : ∀ i, i + 1 < mx.processor.length → g.selector 2 i = true := fun i hi => by
    rw [hS, hf.procStep 2 (by omega)]; exact decide_eq_true (by omega)
  have s5 : ∀ i, i + 1 < mx.processor.length → g.selector 5 i = true := fun i hi => by
    rw [hS, hf.procStep 5 (by omega)]; exact decide_eq_true (by omega)
  have s4 : ∀ i, i < mx.processor.length → g.selector 4 i = true := fun i hi => by
    rw [hS, hf.procSel 4 (by omega)]; exact decide_eq_true hi
  have s0 : ∀ i, i < mx.processor.length → g.selector 0 i = true := fun i hi => by
    rw [hS, hf.procSel 0 (by omega)]; exact decide_eq_true hi
  have s1 : ∀ i, i < mx.processor.length → g.selector 1 i = true := fun i hi => by
    rw [hS, hf.procSel 1 (by omega)]; exact decide_eq_true hi
  have s3 : g.selector 3 0 = true := by rw [hS, hf.procFirst]; rfl
  have s6 : ∀ i, i + 1 < mx.memory.length → g.selector 6 i = true := fun i hi => by
    rw [hS, hf.memStep]; exact decide_eq_true (by omega)
  have s7 : ∀ i, i < mx.memory.length → g.selector 7 i = true := fun i hi => by
    rw [hS, hf.memSel]; exact decide_eq_true hi
  have sI : ∀ s, s = 8 ∨ s = 9 ∨ s = 11 → ∀ i, i + 1 < mx.instruction.length →
      g.selector s i = true := fun s hs i hi => by
    rw [hS, hf.insStep s hs]; exact decide_eq_true (by omega)
  have s10 : g.selector 10 mx.instruction.length = true := by
    rw [hS, hf.insAdhoc]; exact decide_eq_true rfl
  have s12 : ∀ i, i < mx.output.length → g.selector 12 i = true := fun i hi => by
    rw [hS, hf.outSel]; exact decide_eq_true hi
  have s13 : ∀ i, i < mx.input.length → g.selector 13 i = true := fun i hi => by
    rw [hS, hf.inpSel]; exact decide_eq_true hi
  have s14 : ∀ i, i < mx.program.length → g.selector 14 i = true := fun i hi => by
    rw [hS, hf.progSel]; exact decide_eq_true hi
  have hinsStep : ∀ k, k + 1 < mx.instruction.length →
      (g.advice 15 (k + 1) = g.advice 15 k ∧ g.advice 16 (k + 1) = g.advice 16 k ∧
        g.advice 17 (k + 1) = g.advice 17 k) ∨ g.advice 15 (k + 1) = g.advice 15 k + 1 := by
    intro k hk
    have i0 := (hR k (by omega)).i0 (sI 11 (by omega) k hk)
    have i1 := (hR k (by omega)).i1 (sI 11 (by omega) k hk)
    have i2 := (hR k (by omega)).i2 (sI 11 (by omega) k hk)
    rw [hnx k (by omega)] at i0 i1 i2
    rcases mul_eq_zero.1 i0 with e | e
    · left
      rw [e] at i1 i2
      refine ⟨sub_eq_zero.1 e, ?_, ?_⟩
      · linear_combination -i1
      · linear_combination -i2
    · right; linear_combination e
  exact
  { roomP := hP
    roomM := hM
    roomI := hI
    roomO := hO
    roomN := hN
    roomG := hG
    start := ⟨(hR 0 (by omega)).bClk s3, (hR 0 (by omega)).bIp s3, (hR 0 (by omega)).bMp s3,
      (hR 0 (by omega)).bMv s3⟩
    clk := by
      intro i hi
      have := (hR i (by omega)).p0 (s2 i hi)
      rw [hnx i (by omega)] at this
      show g.advice 0 (i + 1) = g.advice 0 i + 1
      linear_combination this
    step := by
      intro i hi op ho hci
      exact (C18_step n i g a.copies op hsat htable (by rw [mainCS_usable]; omega) (s2 i hi)
        (s1 i (by omega)) (s0 i (by omega)) (s0 (i + 1) hi) ho hci).1
    byte := hbyte
    memStep := by
      intro k hk
      have m0 := (hR k (by omega)).m0 (s6 k hk)
      have m1 := (hR k (by omega)).m1 (s6 k hk)
      have m2 := (hR k (by omega)).m2 (s6 k hk)
      rw [hnx k (by omega)] at m0 m1 m2
      rcases mul_eq_zero.1 m0 with e | e
      · right
        refine ⟨by linear_combination e, ?_⟩
        linear_combination m2 - (g.advice 13 (k + 1)) * e
      · left
        refine ⟨sub_eq_zero.1 e, fun hne => ?_⟩
        rw [e, zero_sub, neg_one_mul, neg_eq_zero, mul_eq_zero] at m1
        rcases m1 with m1 | m1
        · exact (sub_eq_zero.1 m1).symm
        · exact absurd (by linear_combination m1) hne
    insStep := hinsStep
    memProd := by
      rw [triples_factor]
      apply run_prod (A := g.advice 14)
      intro i hi
      have := (hR i (by omega)).memPrp (s7 i hi)
      rw [hnx i (by omega)] at this
      exact sub_eq_zero.1 this
    procMemProd := by
      rw [triples_factor]
      apply run_prod (A := g.advice 7)
      intro i hi
      have := (hR i (by omega)).procMemPrp (s4 i hi)
      rw [hnx i (by omega)] at this
      exact sub_eq_zero.1 this
    procInsProd := by
      rw [triples_factor]
      apply run_prod (A := g.advice 8)
      intro i hi
      have := (hR i (by omega)).procInstPrp (s4 i hi)
      rw [hnx i (by omega)] at this
      exact sub_eq_zero.1 this
    insProd := by
      intro hpos
      have had := (hR mx.instruction.length (by omega)).instAdhoc s10
      have hpr : prv n mx.instruction.length = mx.instruction.length - 1 := by
        obtain ⟨m, hm⟩ : ∃ m, mx.instruction.length = m + 1 := ⟨mx.instruction.length - 1, by omega⟩
        rw [hm]
        exact rotate_neg_one (by omega)
      rw [hpr] at had
      have hrun : g.advice 18 (mx.instruction.length - 1) = g.advice 18 0 *
          ((List.range (mx.instruction.length - 1)).flatMap fun i =>
            if g.advice 15 (i + 1) = g.advice 15 i then
              [g.challenge 4 - g.challenge 5 * g.advice 15 i - g.challenge 6 * g.advice 16 i -
                g.challenge 7 * g.advice 17 i] else []).prod := by
        apply run_prod_if (A := g.advice 18)
        intro i hi
        have := (hR i (by omega)).instPrp (sI 8 (by omega) i (by omega))
        rw [hnx i (by omega)] at this
        rcases hinsStep i (by omega) with ⟨e, -, -⟩ | e
        · rw [if_pos e]
          rw [e, sub_self, zero_mul, add_zero, zero_sub, neg_one_mul, neg_eq_zero] at this
          exact sub_eq_zero.1 this
        · rw [if_neg (by rw [e]; exact ne_add_one _)]
          rw [e] at this
          linear_combination this
      rw [stayTriples_factor, ← mul_assoc, ← hrun]
      exact sub_eq_zero.1 had
    insSum := by
      have e : changes (g.advice 15) (g.advice 16) (mx.instruction.length - 1) =
          (List.range (mx.instruction.length - 1)).flatMap fun i =>
            if g.advice 15 (i + 1) ≠ g.advice 15 i then [g.advice 16 i] else [] := by
        exact changes_ne _ _ _
      rw [e]
      apply run_sum_if (A := g.advice 19)
      intro i hi
      have := (hR i (by omega)).instRs (sI 9 (by omega) i (by omega))
      rw [hnx i (by omega)] at this
      rcases hinsStep i (by omega) with ⟨e, -, -⟩ | e
      · rw [if_neg (not_not.2 e)]
        rw [e] at this
        linear_combination -this
      · rw [if_pos (by rw [e]; exact ne_add_one _)]
        rw [e] at this
        linear_combination this
    progSum := by
      apply run_sum (A := g.advice 27)
      intro i hi
      have := (hR i (by omega)).progRs (s14 i hi)
      rw [hnx i (by omega)] at this
      exact sub_eq_zero.1 this
    outSum := by
      apply run_sum (A := g.advice 21)
      intro i hi
      have := (hR i (by omega)).outRs (s12 i hi)
      rw [hnx i (by omega)] at this
      exact sub_eq_zero.1 this
    inSum := by
      apply run_sum (A := g.advice 24)
      intro i hi
      have := (hR i (by omega)).inRs (s13 i hi)
      rw [hnx i (by omega)] at this
      exact sub_eq_zero.1 this
    procOut := by
      intro hop
      apply run_sum_if (A := g.advice 9)
      intro i hi
      obtain ⟨v, hv, hci⟩ := hop i (by omega)
      have := (hR i (by omega)).procOut (s5 i (by omega))
      rw [hnx i (by omega), rotate_zero (by omega)] at this
      have hci' : g.advice 1 i = frOfByte v := hci
      rw [hci'] at this
      rw [hci]
      exact desel_run (mem_opcodes _ (by simp)) hv this
    procIn := by
      intro hop
      apply run_sum_if (A := g.advice 10)
      intro i hi
      obtain ⟨v, hv, hci⟩ := hop i (by omega)
      have := (hR i (by omega)).procIn (s5 i (by omega))
      rw [hnx i (by omega)] at this
      have hci' : g.advice 1 i = frOfByte v := hci
      rw [hci'] at this
      rw [hci]
      exact desel_run (mem_opcodes _ (by simp)) hv this
    copyMem := hcopies ((.advice 7, _), (.advice 14, _)) (by simp [copyList])
    copyIns := hcopies ((.advice 8, _), (.advice 18, _)) (by simp [copyList])
    copyOut := hcopies ((.advice 21, _), (.advice 9, _)) (by simp [copyList])
    copyIn := hcopies ((.advice 24, _), (.advice 10, _)) (by simp [copyList])
    copyProg := hcopies ((.advice 27, _), (.advice 19, _)) (by simp [copyList])
    inpCells := by
      intro i hi
      have := hcopies ((.advice 22, i), (.instance_ 1, i + 1)) (by
        unfold copyList
        exact List.mem_append_left _ (List.mem_append_left _
          (List.mem_map.2 ⟨i, List.mem_range.2 hi, rfl⟩)))
      have e : g.advice 22 i = g.instance_ 1 (i + 1) := this
      rw [e, hinst]
      rfl
    progCells := by
      intro i hi
      have := hcopies ((.advice 25, i), (.instance_ 0, i + 1)) (by
        unfold copyList
        exact List.mem_append_left _ (List.mem_append_right _
          (List.mem_map.2 ⟨i, List.mem_range.2 hi, rfl⟩)))
      have e : g.advice 25 i = g.instance_ 0 (i + 1) := this
      rw [e, hinst]
      rfl }

end Verif
