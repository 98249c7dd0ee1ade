import Verif.Lemmas.InterpLemmas

/-! Properties C05–C12: the interpreter. -/

namespace Verif.Props

open BF

/-- C05. A finished run agrees with Brainfuck: the textbook machine halts on the same source and
input, within the same number of steps, and output, remaining input, pointer and tape agree. -/
theorem C05_run_agrees (checks : Bool) (src : List UInt8) (code : List Fr) (bits : Nat)
    (input : List Nat) (n : Nat) (s : Interp) (hp : GoodProgram checks src code) (hb : bits < 64)
    (hi : GoodInput bits input) (hn : n ≤ 2 ^ 62)
    (hr : runOn n bits code input = some (.ok s)) :
    ∃ m t, m ≤ n ∧ Finishes (commands src) bits input m t ∧ Agrees s t := by
  obtain ⟨wcode, hist, w, m, t, h⟩ := finished_of_run hp hb hi hn hr
  exact ⟨m, t, h.le, h.fin, h.agrees⟩

/-- C05. If the textbook machine halts after `m` steps, the interpreter finishes (with any fuel
from `m` up to 2^62) and agrees. -/
theorem C05_run_finishes (checks : Bool) (src : List UInt8) (code : List Fr) (bits : Nat)
    (input : List Nat) (n m : Nat) (t : State) (hp : GoodProgram checks src code) (hb : bits < 64)
    (hi : GoodInput bits input) (hn : n ≤ 2 ^ 62) (hm : m ≤ n)
    (hf : Finishes (commands src) bits input m t) :
    ∃ s, runOn n bits code input = some (.ok s) ∧ Agrees s t := by
  have hc := run_cases hp hb hi hn
  cases hr : runOn n bits code input with
  | none =>
    rw [hr] at hc
    obtain ⟨t', h1, h2⟩ := hc
    exfalso
    have hle := hf.1.halted_le hf.2 h1
    have e : n = m := by omega
    subst e
    have := hf.1.split h1 (le_refl _)
    rw [Nat.sub_self] at this
    have := this.zero_eq
    subst this
    exact h2 hf.2
  | some r =>
    rw [hr] at hc
    cases r with
    | error e =>
      obtain ⟨m', e', h1, h2, h3⟩ := hc
      exact absurd hf (fun hf => h2.not_finishes hf)
    | ok s =>
      obtain ⟨wcode, hist, w, m', t', h⟩ := hc
      obtain ⟨rfl, rfl⟩ := hf.unique h.fin
      exact ⟨s, rfl, h.agrees⟩

/-- C05. The numbers compared in `Agrees` are cell values on the Brainfuck side, so that their
images in the field determine them. -/
theorem C05_values_small (p : List Cmd) (bits : Nat) (input : List Nat) (m : Nat) (t : State)
    (hi : GoodInput bits input) (hs : Steps p bits m (BF.init input) t) :
    (∀ i, t.tape i < 2 ^ bits) ∧ (∀ v ∈ t.output, v < 2 ^ bits) ∧ (∀ v ∈ t.input, v < 2 ^ bits) :=
  values_small hi hs

/-- C06. The interpreter panics exactly on a Brainfuck runtime error: with an out-of-range index
exactly when the textbook machine moves left of cell 0, with `Vec::remove` on an empty vector
exactly when it reads past the end of its input, and in no other way. -/
theorem C06_panic_iff (checks : Bool) (src : List UInt8) (code : List Fr) (bits : Nat)
    (input : List Nat) (n : Nat) (hp : GoodProgram checks src code) (hb : bits < 64)
    (hi : GoodInput bits input) (hn : n ≤ 2 ^ 62) :
    (runOn n bits code input = some (.error .index) ↔
      ∃ m, m < n ∧ Fails (commands src) bits input m .leftOfStart) ∧
    (runOn n bits code input = some (.error .remove) ↔
      ∃ m, m < n ∧ Fails (commands src) bits input m .endOfInput) ∧
    (∀ e, runOn n bits code input = some (.error e) → e = .index ∨ e = .remove) := by
  have hc := run_cases hp hb hi hn
  -- a Brainfuck failure within the fuel makes the run panic
  have back : ∀ m e, m < n → Fails (commands src) bits input m e →
      runOn n bits code input = some (.error (BFSim.panicOf e)) := by
    intro m e hm hf
    cases hr : runOn n bits code input with
    | none =>
      rw [hr] at hc
      obtain ⟨t', h1, h2⟩ := hc
      have := hf.not_step h1
      omega
    | some r =>
      rw [hr] at hc
      cases r with
      | error e2 =>
        obtain ⟨m', e', h1, h2, h3⟩ := hc
        obtain ⟨-, rfl⟩ := hf.unique h2
        rw [h3]
      | ok s =>
        obtain ⟨wcode, hist, w, m', t', h⟩ := hc
        exact absurd h.fin (fun hf' => hf.not_finishes hf')
  have forth : ∀ e, runOn n bits code input = some (.error e) →
      ∃ m e', m < n ∧ Fails (commands src) bits input m e' ∧ e = BFSim.panicOf e' := by
    intro e he
    rw [he] at hc
    exact hc
  refine ⟨⟨?_, ?_⟩, ⟨?_, ?_⟩, ?_⟩
  · intro h
    obtain ⟨m, e', h1, h2, h3⟩ := forth _ h
    cases e' with
    | leftOfStart => exact ⟨m, h1, h2⟩
    | endOfInput => cases h3
  · rintro ⟨m, h1, h2⟩; exact back m _ h1 h2
  · intro h
    obtain ⟨m, e', h1, h2, h3⟩ := forth _ h
    cases e' with
    | leftOfStart => cases h3
    | endOfInput => exact ⟨m, h1, h2⟩
  · rintro ⟨m, h1, h2⟩; exact back m _ h1 h2
  · intro e h
    obtain ⟨m, e', h1, h2, h3⟩ := forth _ h
    cases e' with
    | leftOfStart => left; exact h3
    | endOfInput => right; exact h3

/-- C07. At every point of every run, of any code whatsoever (compiled or not), every memory cell
is below `2^bits` and the memory pointer addresses an allocated cell. -/
theorem C07_cells_and_pointer (bits n : Nat) (code input : List Fr) (s0 s : Interp)
    (hb : bits < 64) (hn : n < 2 ^ 62) (hi : ∀ v ∈ input, v.val < 2 ^ bits)
    (h0 : Interp.start (Interp.prepare bits code input) = .ok s0) (hr : Reach s0 n s) :
    (∀ v ∈ s.memory, v.val < 2 ^ bits) ∧
      s.register.memory_pointer.val < s.memory.length := by
  have hinit : CellInv bits 0 s0 := by
    have h2 : 0 < 2 ^ bits := Nat.pow_pos (by norm_num)
    unfold Interp.start at h0
    cases hx : Interp.idx (Interp.prepare bits code input).code 0 with
    | error e => rw [hx] at h0; cases h0
    | ok a =>
      rw [hx] at h0
      simp only [bind, Except.bind] at h0
      have hmk : ∀ b, CellInv bits 0 { Interp.prepare bits code input with
          register := { (Interp.prepare bits code input).register with
            current_instruction := a, next_instruction := b }
          matrix := { (Interp.prepare bits code input).matrix with
            instruction := (Interp.prepare bits code input).matrix.instruction ++
              Interp.programRows (Interp.prepare bits code input).code } } := by
        intro b
        refine ⟨rfl, ?_, hi, ?_, ?_⟩
        · intro v hv
          have : v ∈ [(0 : Fr)] := hv
          simp at this
          subst this
          rw [ZMod.val_zero]; exact h2
        · show ((0 : Fr)).val < [(0 : Fr)].length
          rw [ZMod.val_zero]; simp
        · show [(0 : Fr)].length ≤ 0 + 1
          simp
      by_cases hl : (Interp.prepare bits code input).code.length = 1
      · simp only [hl, decide_true, if_true] at h0
        cases h0
        exact hmk 0
      · simp only [hl, decide_false, Bool.false_eq_true, if_false] at h0
        cases hy : Interp.idx (Interp.prepare bits code input).code 1 with
        | error e => rw [hy] at h0; cases h0
        | ok b => rw [hy] at h0; cases h0; exact hmk b
  have hall : ∀ n s, Reach s0 n s → n < 2 ^ 62 → CellInv bits n s := by
    intro n s hr
    induction hr with
    | zero => intro _; exact hinit
    | succ _ _ hstep ih => intro hn; exact (ih (by omega)).step hb (by omega) hstep
  exact ⟨(hall n s hr hn).cells, (hall n s hr hn).ptr⟩

/-- C08. After a finished run of `m` steps (the number of Brainfuck steps) the processor table has
`m+1` rows, row `i` has cycle `i`, the first row has instruction pointer, memory pointer and value
0, and the last row has its instruction pointer at the program length with no instruction left. -/
theorem C08_trace_shape (checks : Bool) (src : List UInt8) (code : List Fr) (bits : Nat)
    (input : List Nat) (n : Nat) (s : Interp) (hp : GoodProgram checks src code) (hb : bits < 64)
    (hi : GoodInput bits input) (hn : n ≤ 2 ^ 62)
    (hr : runOn n bits code input = some (.ok s)) :
    ∃ m t, Finishes (commands src) bits input m t ∧ s.matrix.processor.length = m + 1 ∧
      (∀ (i : Nat) r, s.matrix.processor[i]? = some r → r.cycle = (i : Fr)) ∧
      (∃ r, s.matrix.processor[0]? = some r ∧ r.instruction_pointer = 0 ∧ r.memory_pointer = 0 ∧
        r.memory_value = 0) ∧
      (∃ r, s.matrix.processor[m]? = some r ∧ r.instruction_pointer = (code.length : Fr) ∧
        r.current_instruction = 0 ∧ r.next_instruction = 0) := by
  obtain ⟨wcode, hist, w, m, t, h⟩ := finished_of_run hp hb hi hn hr
  have hproc : s.matrix.processor = (hist ++ [w]).map (W.reg wcode) := by
    rw [h.result]; simp [Interp.finish, Interp.record, W.emb]
  refine ⟨m, t, h.fin, ?_, ?_, ?_, ?_⟩
  · rw [hproc]; simp [h.len]
  · intro i r hr'
    rw [hproc, List.getElem?_map] at hr'
    cases hw : (hist ++ [w])[i]? with
    | none => rw [hw] at hr'; cases hr'
    | some a =>
      rw [hw] at hr'
      cases hr'
      show (a.cyc : Fr) = i
      rw [h.trace.cyc hw]
  · refine ⟨W.reg wcode (W.init input), ?_, ?_, ?_, ?_⟩
    · rw [hproc, List.getElem?_map, h.trace.first]; rfl
    · show ((0 : Nat) : Fr) = 0; simp
    · show ((0 : Nat) : Fr) = 0; simp
    · show ((0 : Nat) : Fr) = 0; simp
  · have hip : w.ip = wcode.length := by
      have h1 := h.fin.2
      have h2 := h.rel.pc
      unfold Halted at h1
      rw [h.rel.ip, h.comp.length, show t.pc = (commands src).length by omega]
    refine ⟨W.reg wcode w, ?_, ?_, ?_, ?_⟩
    · rw [hproc, List.getElem?_map, ← h.len]; simp
    · show (w.ip : Fr) = _
      rw [hip, h.code_eq, W.length_cast]
    · show ((w.ci wcode : Nat) : Fr) = 0
      unfold W.ci
      rw [hip, List.getD_eq_getElem?_getD, List.getElem?_eq_none (le_refl _)]; simp
    · show ((w.ni wcode : Nat) : Fr) = 0
      unfold W.ni
      rw [hip, List.getD_eq_getElem?_getD, List.getElem?_eq_none (by omega)]; simp

/-- C09. After a finished run the instruction table is sorted by instruction pointer, is a
rearrangement of one row per program word and one row per processor row, and rows with equal
instruction pointers are equal: each is the row of the program at that position. -/
theorem C09_instruction_table (checks : Bool) (src : List UInt8) (code : List Fr) (bits : Nat)
    (input : List Nat) (n : Nat) (s : Interp) (hp : GoodProgram checks src code) (hb : bits < 64)
    (hi : GoodInput bits input) (hn : n ≤ 2 ^ 62)
    (hr : runOn n bits code input = some (.ok s)) :
    s.matrix.instruction.Pairwise
      (fun a b => a.instruction_pointer.val ≤ b.instruction_pointer.val) ∧
    s.matrix.instruction.Perm ((List.range code.length).map (programRow code) ++
      s.matrix.processor.map (fun r =>
        ⟨r.instruction_pointer, r.current_instruction, r.next_instruction⟩)) ∧
    (∀ r ∈ s.matrix.instruction, ∃ i, i ≤ code.length ∧ r = programRow code i) ∧
    (∀ r ∈ s.matrix.instruction, ∀ r' ∈ s.matrix.instruction,
      r.instruction_pointer = r'.instruction_pointer → r = r') := by
  obtain ⟨wcode, hist, w, m, t, h⟩ := finished_of_run hp hb hi hn hr
  have hinstr : s.matrix.instruction = (Interp.programRows (W.cast wcode) ++
      (hist ++ [w]).map (fun w => InstrRow.ofRegister (w.reg wcode))).mergeSort
        (fun a b => decide (a.instruction_pointer.val ≤ b.instruction_pointer.val)) := by
    rw [h.result]; simp [Interp.finish, Interp.record, W.emb]
  have hproc : s.matrix.processor = (hist ++ [w]).map (W.reg wcode) := by
    rw [h.result]; simp [Interp.finish, Interp.record, W.emb]
  have hperm : s.matrix.instruction.Perm ((List.range code.length).map (programRow code) ++
      s.matrix.processor.map (fun r =>
        ⟨r.instruction_pointer, r.current_instruction, r.next_instruction⟩)) := by
    rw [hinstr, hproc, ← programRows_eq, h.code_eq]
    refine (List.mergeSort_perm _ _).trans ?_
    rw [List.map_map]
    exact List.Perm.refl _
  -- every processor row is the row of the program at its position
  have hips : ∀ a ∈ hist ++ [w], a.ip ≤ wcode.length := by
    intro a ha
    obtain ⟨i, hi', hia⟩ := List.getElem_of_mem ha
    have hai : (hist ++ [w])[i]? = some a := by rw [List.getElem?_eq_getElem hi', hia]
    by_cases hlast : i = hist.length
    · subst hlast
      simp at hai
      subst hai
      have h1 := h.fin.2
      have h2 := h.rel.pc
      unfold Halted at h1
      rw [h.rel.ip, h.comp.length, show t.pc = (commands src).length by omega]
    · have hl : i + 1 < (hist ++ [w]).length := by simp at hi' ⊢; omega
      have := (h.trace.next i a _ hai (List.getElem?_eq_getElem hl)).1
      simp [W.halted] at this
      omega
  have hrow : ∀ r ∈ s.matrix.instruction, ∃ i, i ≤ code.length ∧ r = programRow code i := by
    intro r hr'
    rcases List.mem_append.1 (hperm.subset hr') with h1 | h1
    · obtain ⟨i, hi', rfl⟩ := List.mem_map.1 h1
      exact ⟨i, le_of_lt (List.mem_range.1 hi'), rfl⟩
    · rw [hproc, List.map_map] at h1
      obtain ⟨a, ha, rfl⟩ := List.mem_map.1 h1
      refine ⟨a.ip, by rw [h.code_eq, W.length_cast]; exact hips a ha, ?_⟩
      unfold programRow
      rw [h.code_eq, getD_cast, getD_cast]
      rfl
  refine ⟨?_, hperm, hrow, ?_⟩
  · rw [hinstr]
    have := List.pairwise_mergeSort
      (le := fun (a b : InstrRow) => decide (a.instruction_pointer.val ≤ b.instruction_pointer.val))
      (by intro a b c; simp only [decide_eq_true_eq]; omega)
      (by intro a b; simp only [Bool.or_eq_true, decide_eq_true_eq]; omega)
      (Interp.programRows (W.cast wcode) ++
        (hist ++ [w]).map (fun w => InstrRow.ofRegister (w.reg wcode)))
    exact this.imp (by intro a b; simp)
  · intro r hr1 r' hr2 he
    obtain ⟨i, hi1, rfl⟩ := hrow r hr1
    obtain ⟨j, hj1, rfl⟩ := hrow r' hr2
    have hl : code.length < P := by
      have := h.ok.len
      rw [h.code_eq, W.length_cast]
      exact lt_P_of_lt (k := 64) (by omega) (by norm_num)
    have : i = j := (Fr.cast_inj (by omega) (by omega)).1 he
    rw [this]

/-- C10. After a finished run the memory table is a rearrangement of the (cycle, pointer, value)
parts of the processor rows, sorted by pointer and, within a pointer, by cycle. Going from one row
to the next, either the pointer stays, and then the value only changes if the cycles are
consecutive, or it grows by one, and then the new cell holds 0. The first row is cell 0 at cycle 0
with value 0. -/
theorem C10_memory_table (checks : Bool) (src : List UInt8) (code : List Fr) (bits : Nat)
    (input : List Nat) (n : Nat) (s : Interp) (hp : GoodProgram checks src code) (hb : bits < 64)
    (hi : GoodInput bits input) (hn : n ≤ 2 ^ 62)
    (hr : runOn n bits code input = some (.ok s)) :
    s.matrix.memory.Perm (s.matrix.processor.map
      (fun r => ⟨r.cycle, r.memory_pointer, r.memory_value, 0⟩)) ∧
    s.matrix.memory.Pairwise (fun a b => a.memory_pointer.val < b.memory_pointer.val ∨
      (a.memory_pointer = b.memory_pointer ∧ a.cycle.val < b.cycle.val)) ∧
    (∀ k a b, s.matrix.memory[k]? = some a → s.matrix.memory[k + 1]? = some b →
      (b.memory_pointer = a.memory_pointer ∧
        (b.cycle ≠ a.cycle + 1 → b.memory_value = a.memory_value)) ∨
      (b.memory_pointer = a.memory_pointer + 1 ∧ b.memory_value = 0)) ∧
    s.matrix.memory[0]? = some ⟨0, 0, 0, 0⟩ := by
  obtain ⟨wcode, hist, w, m, t, h⟩ := finished_of_run hp hb hi hn hr
  have hmem0 : s.matrix.memory = ((hist ++ [w]).map
      (fun w => MemRow.ofRegister (w.reg wcode))).mergeSort
        (fun a b => decide (a.memory_pointer.val ≤ b.memory_pointer.val)) := by
    rw [h.result]; simp [Interp.finish, Interp.record, W.emb]
  have hproc : s.matrix.processor = (hist ++ [w]).map (W.reg wcode) := by
    rw [h.result]; simp [Interp.finish, Interp.record, W.emb]
  have hbnd : ∀ a ∈ hist ++ [w], a.mp < 2 ^ 63 ∧ a.cyc < 2 ^ 63 ∧ a.mv < 2 ^ 63 := by
    intro a ha
    obtain ⟨i, hi', hia⟩ := List.getElem_of_mem ha
    have hai : (hist ++ [w])[i]? = some a := by rw [List.getElem?_eq_getElem hi', hia]
    have hinv := h.trace.inv h.ok hi hai
    have hcyc := h.trace.cyc hai
    have h1 := hinv.mp
    have h2 := hinv.len
    have h3 : i ≤ m := by simp [h.len] at hi'; omega
    have h4 := h.le
    have h5 := W.mv_lt hinv
    have h6 : 2 ^ bits ≤ 2 ^ 63 := Nat.pow_le_pow_right (by norm_num) (by omega)
    refine ⟨by omega, by omega, by omega⟩
  have hP : ∀ x : Nat, x < 2 ^ 63 → x < P := fun x hx => lt_P_of_lt hx (by norm_num)
  have hmem : s.matrix.memory = (W.Trace.sorted (hist ++ [w])).map
      (fun w => MemRow.ofRegister (w.reg wcode)) := by
    rw [hmem0]
    unfold W.Trace.sorted
    rw [List.map_mergeSort (s := fun (a b : MemRow) =>
      decide (a.memory_pointer.val ≤ b.memory_pointer.val))]
    intro a ha b hb'
    show decide (a.mp ≤ b.mp) = decide ((a.mp : Fr).val ≤ (b.mp : Fr).val)
    rw [Fr.val_cast (hP _ (hbnd a ha).1), Fr.val_cast (hP _ (hbnd b hb').1)]
  have hsm : ∀ a ∈ W.Trace.sorted (hist ++ [w]), a.mp < P ∧ a.cyc < P := by
    intro a ha
    have := hbnd a ((W.Trace.mem_sorted a).1 ha)
    exact ⟨hP _ this.1, hP _ this.2.1⟩
  refine ⟨?_, ?_, ?_, ?_⟩
  · rw [hmem0, hproc, List.map_map]
    exact List.mergeSort_perm _ _
  · rw [hmem, List.pairwise_map]
    refine h.trace.sorted_lex.imp_of_mem ?_
    intro a b ha hb' hab
    show (a.mp : Fr).val < (b.mp : Fr).val ∨ ((a.mp : Fr) = (b.mp : Fr) ∧
      (a.cyc : Fr).val < (b.cyc : Fr).val)
    rw [Fr.val_cast (hsm a ha).1, Fr.val_cast (hsm b hb').1, Fr.val_cast (hsm a ha).2,
      Fr.val_cast (hsm b hb').2]
    rcases hab with h1 | ⟨h1, h2⟩
    · left; exact h1
    · right; exact ⟨by rw [h1], h2⟩
  · intro k a b ha hb'
    rw [hmem, List.getElem?_map] at ha hb'
    cases ha' : (W.Trace.sorted (hist ++ [w]))[k]? with
    | none => rw [ha'] at ha; cases ha
    | some a' =>
      cases hb'' : (W.Trace.sorted (hist ++ [w]))[k + 1]? with
      | none => rw [hb''] at hb'; cases hb'
      | some b' =>
        rw [ha'] at ha
        rw [hb''] at hb'
        cases ha
        cases hb'
        show ((b'.mp : Fr) = (a'.mp : Fr) ∧ ((b'.cyc : Fr) ≠ (a'.cyc : Fr) + 1 →
          (b'.mv : Fr) = (a'.mv : Fr))) ∨ ((b'.mp : Fr) = (a'.mp : Fr) + 1 ∧ (b'.mv : Fr) = 0)
        rcases h.trace.adjacent ha' hb'' with ⟨h1, h2, h3⟩ | ⟨h1, h2⟩
        · left
          refine ⟨by rw [h1], fun hne => ?_⟩
          rw [h3 (fun e => hne (by rw [e]; simp))]
        · right
          rw [h1, h2]; simp
  · rw [hmem, List.getElem?_map, h.trace.sorted_first]
    show some (MemRow.mk ((0 : Nat) : Fr) ((0 : Nat) : Fr) ((0 : Nat) : Fr) 0) = _
    simp

/-- C11. For any code and any input, compiled or not: in every processor row of a finished run the
inverse column is 0 if the value is 0 and is the field inverse of the value otherwise. -/
theorem C11_inverse_column (bits n : Nat) (code input : List Fr) (s : Interp)
    (hr : Interp.run n (Interp.prepare bits code input) = some (.ok s)) :
    ∀ r ∈ s.matrix.processor,
      (r.memory_value = 0 → r.memory_value_inverse = 0) ∧
      (r.memory_value ≠ 0 → r.memory_value * r.memory_value_inverse = 1) := by
  let Good (r : Register) : Prop := r.memory_value_inverse =
    (if r.memory_value = 0 then 0 else r.memory_value⁻¹)
  have hgood : ∀ r : Register, Good r → (r.memory_value = 0 → r.memory_value_inverse = 0) ∧
      (r.memory_value ≠ 0 → r.memory_value * r.memory_value_inverse = 1) := by
    intro r hg
    have hg : r.memory_value_inverse = (if r.memory_value = 0 then 0 else r.memory_value⁻¹) := hg
    refine ⟨fun h0 => by rw [hg, if_pos h0], fun h0 => ?_⟩
    rw [hg, if_neg h0]
    exact mul_inv_cancel₀ h0
  have hloop : ∀ n s s', Interp.loop n s = some (.ok s') → Good s.register →
      (∀ r ∈ s.matrix.processor, Good r) →
      Good s'.register ∧ ∀ r ∈ s'.matrix.processor, Good r := by
    intro n
    induction n with
    | zero =>
      intro s s' h h1 h2
      unfold Interp.loop at h
      split_ifs at h
      cases h; exact ⟨h1, h2⟩
    | succ n ih =>
      intro s s' h h1 h2
      unfold Interp.loop at h
      split_ifs at h
      · cases h; exact ⟨h1, h2⟩
      · cases hs : s.step with
        | error e => rw [hs] at h; cases h
        | ok s1 =>
          rw [hs] at h
          refine ih s1 s' h ?_ ?_
          · unfold Interp.step at hs
            cases he : Interp.exec s.record with
            | error e => rw [he] at hs; cases hs
            | ok s2 => rw [he] at hs; exact (refresh_ok hs).2.2.2.2.2.2.2.2.2.2
          · unfold Interp.step at hs
            cases he : Interp.exec s.record with
            | error e => rw [he] at hs; cases hs
            | ok s2 =>
              rw [he] at hs
              rw [(refresh_ok hs).2.2.2.1, exec_processor he]
              intro r hr'
              have : r ∈ s.matrix.processor ++ [s.register] := hr'
              rcases List.mem_append.1 this with h3 | h3
              · exact h2 r h3
              · simp at h3; rw [h3]; exact h1
  unfold Interp.run at hr
  cases h0 : Interp.start (Interp.prepare bits code input) with
  | error e => rw [h0] at hr; cases hr
  | ok s0 =>
    rw [h0] at hr
    simp only at hr
    have hs0 : s0.register.memory_value = 0 ∧ s0.register.memory_value_inverse = 0 ∧
        s0.matrix.processor = [] := by
      unfold Interp.start at h0
      cases hx : Interp.idx (Interp.prepare bits code input).code 0 with
      | error e => rw [hx] at h0; cases h0
      | ok a =>
        rw [hx] at h0
        simp only [bind, Except.bind] at h0
        split at h0
        · cases h0
        · cases h0; exact ⟨rfl, rfl, rfl⟩
    cases hl : Interp.loop n s0 with
    | none => rw [hl] at hr; cases hr
    | some r =>
      rw [hl] at hr
      cases r with
      | error e => cases hr
      | ok s1 =>
        simp only [Option.some.injEq, Except.ok.injEq] at hr
        obtain ⟨g1, g2⟩ := hloop n s0 s1 hl
          (by show s0.register.memory_value_inverse = _; rw [hs0.1, hs0.2.1]; simp)
          (by rw [hs0.2.2]; simp)
        intro r hr'
        apply hgood
        rw [← hr] at hr'
        have : r ∈ s1.matrix.processor ++ [s1.register] := hr'
        rcases List.mem_append.1 this with h3 | h3
        · exact g2 r h3
        · simp at h3; rw [h3]; exact g1

/-- C12. Unread input does not matter: for any code, if a run finishes on `input`, it finishes on
`input ++ ext` with the same trace tables (hence the same output), the same memory and registers,
and `ext` is appended to what is left unread. -/
theorem C12_unread_input (bits n : Nat) (code input ext : List Fr) (s : Interp)
    (hr : Interp.run n (Interp.prepare bits code input) = some (.ok s)) :
    Interp.run n (Interp.prepare bits code (input ++ ext)) =
      some (.ok { s with input := s.input ++ ext }) := by
  unfold Interp.run at hr ⊢
  have hstart : ∀ s0, Interp.start (Interp.prepare bits code input) = .ok s0 →
      Interp.start (Interp.prepare bits code (input ++ ext)) = .ok (moreInput s0 ext) := by
    intro s0 h0
    have e1 : (Interp.prepare bits code (input ++ ext)).code =
      (Interp.prepare bits code input).code := rfl
    unfold Interp.start at h0 ⊢
    rw [e1]
    cases hx : Interp.idx (Interp.prepare bits code input).code 0 with
    | error e => rw [hx] at h0; cases h0
    | ok a =>
      rw [hx] at h0
      simp only [bind, Except.bind] at h0 ⊢
      by_cases hl : (Interp.prepare bits code input).code.length = 1
      · simp only [hl, decide_true, if_true] at h0 ⊢
        cases h0; rfl
      · simp only [hl, decide_false, Bool.false_eq_true, if_false] at h0 ⊢
        cases hy : Interp.idx (Interp.prepare bits code input).code 1 with
        | error e => rw [hy] at h0; cases h0
        | ok b => rw [hy] at h0; cases h0; rfl
  cases h0 : Interp.start (Interp.prepare bits code input) with
  | error e => rw [h0] at hr; cases hr
  | ok s0 =>
    rw [h0] at hr
    rw [hstart s0 h0]
    simp only at hr ⊢
    cases hl : Interp.loop n s0 with
    | none => rw [hl] at hr; cases hr
    | some r =>
      rw [hl] at hr
      cases r with
      | error e => cases hr
      | ok s1 =>
        rw [loop_more ext n s0 s1 hl]
        simp only [Option.some.injEq, Except.ok.injEq] at hr ⊢
        rw [← hr]
        rfl

/-- C12. A run reads a prefix of its input: what it read followed by what is left is the input. -/
theorem C12_reads_prefix (checks : Bool) (src : List UInt8) (code : List Fr) (bits : Nat)
    (input : List Nat) (n : Nat) (s : Interp) (hp : GoodProgram checks src code) (hb : bits < 64)
    (hi : GoodInput bits input) (hn : n ≤ 2 ^ 62)
    (hr : runOn n bits code input = some (.ok s)) :
    s.matrix.input ++ s.input = toFr input := by
  obtain ⟨wcode, hist, w, m, t, h⟩ := finished_of_run hp hb hi hn hr
  have hw : (hist ++ [w])[hist.length]? = some w := by simp
  have := h.trace.read hw
  rw [h.result]
  show W.cast w.read ++ W.cast w.inp = W.cast input
  rw [← this]
  unfold W.cast
  rw [List.map_append]

/-! Concrete cases: `,+[->+<]>.` on input 2 prints 3; `<` fails at once; `,` fails without input. -/

/-- `,+[->+<]>.` -/
def demo : List UInt8 := [44, 43, 91, 45, 62, 43, 60, 93, 62, 46]
/-- The compiled `demo`. -/
def demoCode : List Fr := toFr [44, 43, 91, 10, 45, 62, 43, 60, 93, 4, 62, 46]

theorem demo_good : GoodProgram true demo demoCode := by
  refine ⟨by decide, by decide, by decide, by decide⟩

theorem demo_input : GoodInput 8 [2] := by unfold GoodInput; decide

/-- The hypotheses of C05, C08, C09, C10, C11 and C12 are met by the demo: the run finishes and
prints 3. -/
example : ((runOn 100 8 demoCode [2]).map (fun r => r.map (fun s => s.matrix.output))) =
    some (.ok [3]) := by decide +kernel

/-- The same run with unread input behind. -/
example : ((runOn 100 8 demoCode [2, 7]).map (fun r => r.map (fun s => (s.matrix.output, s.input)))) =
    some (.ok ([3], [7])) := by decide +kernel

/-- The Brainfuck machine therefore finishes on it (C05). -/
example : ∃ m t, m ≤ 100 ∧ Finishes (commands demo) 8 [2] m t ∧ toFr t.output = [3] := by
  have h : ((runOn 100 8 demoCode [2]).map (fun r => r.map (fun s => s.matrix.output))) =
      some (.ok [3]) := by decide +kernel
  cases hr : runOn 100 8 demoCode [2] with
  | none => rw [hr] at h; cases h
  | some r =>
    rw [hr] at h
    cases r with
    | error e => simp [Except.map] at h
    | ok s =>
      obtain ⟨m, t, h1, h2, h3⟩ := C05_run_agrees true demo demoCode 8 [2] 100 s demo_good
        (by norm_num) demo_input (by norm_num) hr
      refine ⟨m, t, h1, h2, ?_⟩
      rw [← h3.output]
      simpa [Except.map] using h

/-- C06: both panics occur. -/
example : runOn 10 8 (toFr [60]) [] = some (.error .index) := by decide +kernel
example : runOn 10 8 (toFr [44]) [] = some (.error .remove) := by decide +kernel
example : GoodProgram true [60] (toFr [60]) ∧ GoodProgram true [44] (toFr [44]) :=
  ⟨⟨by decide, by decide, by decide, by decide⟩, ⟨by decide, by decide, by decide, by decide⟩⟩

/-- C07: a reachable state with a wrapped cell (`-`). -/
example : ∃ s0 s, Interp.start (Interp.prepare 8 (toFr [45]) []) = .ok s0 ∧ Reach s0 1 s ∧
    s.memory = [255] := by
  have h0 : ∃ s0, Interp.start (Interp.prepare 8 (toFr [45]) []) = .ok s0 := ⟨_, rfl⟩
  obtain ⟨s0, h0⟩ := h0
  have h1 : s0.halted = false := by
    cases h0; decide +kernel
  have h2 : ((s0.step).map (fun s => s.memory)) = .ok [255] := by
    cases h0; decide +kernel
  cases h3 : s0.step with
  | error e => rw [h3] at h2; cases h2
  | ok s =>
    rw [h3] at h2
    refine ⟨s0, s, h0, .succ .zero h1 h3, ?_⟩
    simpa [Except.map] using h2

#print axioms C05_run_agrees
#print axioms C05_run_finishes
#print axioms C05_values_small
#print axioms C06_panic_iff
#print axioms C07_cells_and_pointer
#print axioms C08_trace_shape
#print axioms C09_instruction_table
#print axioms C10_memory_table
#print axioms C11_inverse_column
#print axioms C12_unread_input
#print axioms C12_reads_prefix

end Verif.Props
