import Verif.Lemmas.Honest
import Verif.Lemmas.Fits
import Verif.Model.Prover

/-! Lookups, copies and room for honest traces (helper for the property theorems). -/

namespace Verif

open BF Spec Props

section

variable {checks : Bool} {src : List UInt8} {code : List Fr} {input : List Nat} {n : Nat}
  {s : Interp} {wcode : List Nat} {hist : List W} {w : W} {m : Nat} {t : State}

/-- Every memory value of an honest run is a byte. -/
theorem honest_bytes (hi : GoodInput 8 input)
    (h : Finished src 8 input code n s wcode hist w m t) :
    ∀ (i : Nat) r, s.matrix.processor[i]? = some r → ∃ v : Nat, v < 256 ∧ r.memory_value = (v : Fr) := by
  intro i r hr
  obtain ⟨a, ha, rfl⟩ := h.get hr
  exact ⟨a.mv, W.mv_lt (h.trace.inv h.ok hi ha), rfl⟩

theorem honest_lookup (hi : GoodInput 8 input)
    (h : Finished src 8 input code n s wcode hist w m t) {rows : Nat} {ch : Nat → Fr}
    {inst : Nat → List Fr} {as : List ProcAcc} {vin vcode : List Fr} {g : Grid}
    (hf : Filled rows s.matrix ch inst as vin vcode g) :
    ∀ row, row < mainCS.usableRows rows → ∃ row', row' < mainCS.usableRows rows ∧
      (if g.selector 0 row then 1 else 0) * g.advice 5 row = g.fixed 0 row' := by
  rw [mainCS_usable]
  intro row hrow
  have hroom := hf.room
  rw [hf.procSel 0 (by omega)]
  by_cases hl : row < s.matrix.processor.length
  · obtain ⟨r, hr⟩ := some_of_lt hl
    obtain ⟨v, hv, e⟩ := honest_bytes hi h row r hr
    refine ⟨v, by omega, ?_⟩
    rw [decide_eq_true hl, if_pos rfl, one_mul, hf.proc 5 (by omega) row r hr, hf.fixed v (by omega),
      if_pos hv]
    exact e
  · refine ⟨0, by omega, ?_⟩
    rw [decide_eq_false hl, hf.fixed 0 (by omega)]
    simp

theorem honest_program (h : Finished src 8 input code n s wcode hist w m t) :
    s.matrix.program = code := by
  rw [h.result, h.code_eq]; rfl

theorem toFr_length (l : List Nat) : (toFr l).length = l.length := by unfold toFr; simp

theorem rsEnd {gamma : Fr} {vals : List Fr} {k : Nat} (h : vals.length = k) :
    ((0 : Fr) :: rsAccs gamma 0 vals)[k]? = some (runSum gamma 0 vals) := by
  rw [← h]; exact rsAccs_final vals 0

/-- The copy constraints of an honest trace hold exactly when the whole input was read. -/
theorem honest_copies (hp : GoodProgram checks src code) (hi : GoodInput 8 input)
    (hn : n ≤ 2 ^ 62) (hlen : input.length < 2 ^ 64) (hr : runOn n 8 code input = some (.ok s))
    {rows : Nat} {ch : Nat → Fr} {as : List ProcAcc} {vin vcode : List Fr} {g : Grid}
    (hf : Filled rows s.matrix ch (publicInputs code (toFr input)) as vin vcode g) :
    (∀ p ∈ copyList s.matrix, g.cell p.1 = g.cell p.2) ↔ s.input = [] := by
  obtain ⟨wcode, hist, w, m, t, h⟩ := finished_of_run hp (by norm_num) hi hn hr
  have hpre := C12_reads_prefix checks src code 8 input n s hp (by norm_num) hi hn hr
  have hprog := honest_program h
  have hsum : s.matrix.input.length + s.input.length = input.length := by
    rw [← toFr_length input, ← hpre, List.length_append]
  have hvin : vin = s.matrix.input := by
    have e : ((publicInputs code (toFr input) 1).drop 1) = toFr input := rfl
    rw [hf.vinEq, e, ← hpre, List.take_left]
  have hvcode : vcode = code := by
    have e : ((publicInputs code (toFr input) 0).drop 1) = code := rfl
    rw [hf.vcodeEq, e, hprog, List.take_length]
  obtain ⟨z, f1, f2, f3, f4, f5⟩ := honest_finals hp hi hn hr hf.accs
  constructor
  · intro hcp
    have h1 := hcp ((.advice 23, 0), (.instance_ 1, 0)) (by simp [copyList])
    have h2 : g.advice 23 0 = g.instance_ 1 0 := h1
    rw [hf.inpLen, hf.instance_] at h2
    have h3 : (s.matrix.input.length : Fr) = ((toFr input).length : Fr) := h2
    rw [toFr_length, Fr.cast_inj (lt_P_of_lt (k := 64) (by omega) (by norm_num))
      (lt_P_of_lt (k := 64) hlen (by norm_num))] at h3
    exact List.length_eq_zero_iff.1 (by omega)
  · intro hnil
    rw [hnil, List.append_nil] at hpre
    rw [hnil] at hsum
    simp only [List.length_nil, Nat.add_zero] at hsum
    intro p hpm
    unfold copyList at hpm
    simp only [List.mem_append, List.mem_map, List.mem_range, List.mem_cons, List.not_mem_nil,
      or_false] at hpm
    rcases hpm with (⟨i, hi', rfl⟩ | ⟨i, hi', rfl⟩) | rfl | rfl | rfl | rfl | rfl | rfl | rfl
    · obtain ⟨x, hx⟩ := some_of_lt hi'
      show g.advice 22 i = g.instance_ 1 (i + 1)
      rw [hf.inp i x (by rw [hvin]; exact hx), hf.instance_]
      show x = ((_ :: toFr input).getD (i + 1) 0)
      rw [List.getD_cons_succ, ← hpre, List.getD_eq_getElem?_getD, hx]; rfl
    · obtain ⟨x, hx⟩ := some_of_lt hi'
      show g.advice 25 i = g.instance_ 0 (i + 1)
      rw [hprog] at hx
      rw [hf.prog i x (by rw [hvcode]; exact hx), hf.instance_]
      show x = ((_ :: code).getD (i + 1) 0)
      rw [List.getD_cons_succ, List.getD_eq_getElem?_getD, hx]; rfl
    · show g.advice 26 0 = g.instance_ 0 0
      rw [hf.progLen, hf.instance_, hprog]; rfl
    · show g.advice 23 0 = g.instance_ 1 0
      rw [hf.inpLen, hf.instance_, hsum]
      show _ = ((toFr input).length : Fr)
      rw [toFr_length]
    · show g.advice 7 _ = g.advice 14 _
      rw [hf.procRun 7 (by omega) _ z f1, hf.memRun _ _ f2]; rfl
    · show g.advice 21 _ = g.advice 9 _
      rw [hf.procRun 9 (by omega) _ z f1, hf.outRun _ _ (rsEnd rfl)]
      exact f4.symm
    · show g.advice 24 _ = g.advice 10 _
      rw [hf.procRun 10 (by omega) _ z f1, hf.inpRun _ _ (rsEnd hf.vinLen), hvin]
      exact f5.symm
    · show g.advice 8 _ = g.advice 18 _
      rw [hf.procRun 8 (by omega) _ z f1, (hf.insRun _ _ f3).1]; rfl
    · show g.advice 27 _ = g.advice 19 _
      rw [(hf.insRun _ _ f3).2, hf.progRun _ _ (rsEnd hf.vcodeLen), hvcode]

/-- The output is not longer than the run. -/
theorem out_le (hp : GoodProgram checks src code) (hi : GoodInput 8 input)
    (h : Finished src 8 input code n s wcode hist w m t) :
    ∀ (i : Nat) a, (hist ++ [w])[i]? = some a → a.out.length ≤ i ∧ a.read.length ≤ i := by
  refine h.trace.induct (Q := fun i a => a.out.length ≤ i ∧ a.read.length ≤ i) ⟨by simp [W.init], by simp [W.init]⟩ ?_
  intro i a b hq ha hb _ hs
  obtain ⟨c, hci⟩ := trace_ci h.trace h.comp h.ok hp.balanced hi ha hb
  have hrow := step_row c hci (h.trace.inv h.ok hi ha) hs
  constructor
  · by_cases e : opOf c = 46
    · rw [hrow.put e]; simp; omega
    · rw [hrow.noPut e]; omega
  · by_cases e : opOf c = 44
    · rw [hrow.get e]; simp; omega
    · rw [hrow.noGet e]; omega

/-- The lengths of the tables of an honest run. -/
theorem honest_lengths (hp : GoodProgram checks src code) (hi : GoodInput 8 input)
    (hn : n ≤ 2 ^ 62) (hr : runOn n 8 code input = some (.ok s)) :
    s.matrix.instruction.length = code.length + s.matrix.processor.length ∧
    s.matrix.memory.length = s.matrix.processor.length ∧
    s.matrix.output.length < s.matrix.processor.length ∧
    s.matrix.input.length < s.matrix.processor.length ∧
    s.matrix.input.length + s.input.length = input.length ∧
    s.matrix.program.length = code.length := by
  obtain ⟨wcode, hist, w, m, t, h⟩ := finished_of_run hp (by norm_num) hi hn hr
  have hpre := C12_reads_prefix checks src code 8 input n s hp (by norm_num) hi hn hr
  have h9 := (C09_instruction_table checks src code 8 input n s hp (by norm_num) hi hn hr).2.1
  have h10 := (C10_memory_table checks src code 8 input n s hp (by norm_num) hi hn hr).1
  have hlen : s.matrix.processor.length = hist.length + 1 := by rw [h.processor]; simp
  have hol := out_le hp hi h hist.length w (by simp)
  have e1 : s.matrix.output = W.cast w.out := by rw [h.result]; rfl
  have e2 : s.matrix.input = W.cast w.read := by rw [h.result]; rfl
  refine ⟨?_, ?_, ?_, ?_, ?_, ?_⟩
  · rw [h9.length_eq]; simp
  · rw [h10.length_eq]; simp
  · rw [hlen, e1, W.length_cast]; omega
  · rw [hlen, e2, W.length_cast]; omega
  · rw [← toFr_length input, ← hpre, List.length_append]
  · rw [honest_program h]

/-- Exactly when synthesis of an honest trace succeeds. -/
theorem honest_room (hp : GoodProgram checks src code) (hi : GoodInput 8 input)
    (hn : n ≤ 2 ^ 62) (hr : runOn n 8 code input = some (.ok s)) (rows : Nat) (ch : Nat → Fr) :
    (∃ a, synthesize rows s.matrix ch (publicInputs code (toFr input)) = .ok a) ↔
      263 ≤ rows ∧ s.matrix.instruction.length + 7 ≤ rows ∧ input.length + 7 ≤ rows := by
  obtain ⟨wcode, hist, w, m, t, h⟩ := finished_of_run hp (by norm_num) hi hn hr
  obtain ⟨l1, l2, l3, l4, l5, l6⟩ := honest_lengths hp hi hn hr
  have e0 : (publicInputs code (toFr input) 0).length = code.length + 1 := rfl
  have e1 : (publicInputs code (toFr input) 1).length = input.length + 1 := by
    show (toFr input).length + 1 = _; rw [toFr_length]
  rw [synthesize_exists_iff, e0, e1]
  constructor
  · rintro ⟨h256, h1, h2, -, h3, h4, r1, r2, r3, r4, r5, r6⟩
    omega
  · rintro ⟨h1, h2, h3⟩
    refine ⟨by omega, by omega, by omega, ?_, by omega, by omega, by omega, by omega, by omega,
      by omega, by omega, by omega⟩
    apply procAccs_total
    intro r hr'
    rw [honest_last h r hr']
    exact get_ne_zero.1

end

/-- Every assembly has a completion. -/
theorem completion (n : Nat) (a : Assembly) (ch : Nat → Fr) (inst : Nat → List Fr) :
    ∃ g, Completes n a ch inst g :=
  ⟨⟨a.advice, a.fixed, fun i r => (inst i).getD r 0, a.selector, ch⟩,
    ⟨fun _ _ _ => rfl, fun _ _ _ => rfl, fun _ _ => rfl, fun _ _ => rfl, fun _ => rfl⟩⟩

end Verif
