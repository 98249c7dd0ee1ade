import Verif.Props.Common

/-! Helper lemmas for the interpreter properties. -/

namespace Verif.Props

open BF

/-- The final state of the interpreter shows the same observable state as the Brainfuck machine. -/
structure Agrees (s : Interp) (t : State) : Prop where
  output : s.matrix.output = toFr t.output
  input : s.input = toFr t.input
  pointer : s.register.memory_pointer = (t.ptr : Fr)
  memory : ∀ i, i < s.memory.length → s.memory[i]? = some (t.tape i : Fr)
  beyond : ∀ i, s.memory.length ≤ i → t.tape i = 0

/-- The state reached after `n` iterations of the loop. -/
inductive Reach (s0 : Interp) : Nat → Interp → Prop
  | zero : Reach s0 0 s0
  | succ {n : Nat} {s s' : Interp} : Reach s0 n s → s.halted = false → s.step = .ok s' →
      Reach s0 (n + 1) s'

/-- The instruction table row of program position `i`: the word there and the word after it, with
0 beyond the end. -/
def programRow (code : List Fr) (i : Nat) : InstrRow :=
  ⟨(i : Fr), code.getD i 0, code.getD (i + 1) 0⟩

theorem Finished.agrees {src : List UInt8} {bits : Nat} {input : List Nat} {code : List Fr} {n : Nat}
    {s : Interp} {wcode : List Nat} {hist : List W} {w : W} {m : Nat} {t : State}
    (h : Finished src bits input code n s wcode hist w m t) : Agrees s t := by
  rw [h.result]
  have hmem : (Interp.finish (W.emb wcode bits w hist)).memory = W.cast w.mem := rfl
  refine ⟨?_, ?_, ?_, ?_, ?_⟩
  · show W.cast w.out = _
    rw [h.rel.out]; rfl
  · show W.cast w.inp = _
    rw [h.rel.inp]; rfl
  · show (w.mp : Fr) = _
    rw [h.rel.mp]
  · intro i hi
    rw [hmem] at hi ⊢
    rw [W.length_cast] at hi
    rw [W.getElem?_cast, h.rel.tape, List.getD_eq_getElem?_getD, List.getElem?_eq_getElem hi]
    rfl
  · intro i hi
    rw [hmem, W.length_cast] at hi
    rw [h.rel.tape, List.getD_eq_getElem?_getD, List.getElem?_eq_none hi]; rfl

theorem idx_ok {l : List Fr} {i : Nat} {v : Fr} (h : Interp.idx l i = .ok v) :
    i < l.length ∧ l[i]? = some v := by
  unfold Interp.idx at h
  cases hl : l[i]? with
  | none => rw [hl] at h; cases h
  | some a =>
    rw [hl] at h; cases h
    exact ⟨(List.getElem?_eq_some_iff.1 hl).1, rfl⟩

theorem put_ok {l m : List Fr} {i : Nat} {v : Fr} (h : Interp.put l i v = .ok m) :
    i < l.length ∧ m = l.set i v := by
  unfold Interp.put at h
  split_ifs at h with hl
  cases h; exact ⟨hl, rfl⟩

/-- What `refresh` changes. -/
theorem refresh_ok {s s' : Interp} (h : s.refresh = .ok s') :
    s'.code = s.code ∧ s'.input = s.input ∧ s'.memory = s.memory ∧ s'.matrix = s.matrix ∧
    s'.bits = s.bits ∧ s'.register.memory_pointer = s.register.memory_pointer ∧
    s'.register.instruction_pointer = s.register.instruction_pointer ∧
    s'.register.cycle = s.register.cycle + 1 ∧
    s.register.mp < s.memory.length ∧
    s.memory[s.register.mp]? = some s'.register.memory_value ∧
    s'.register.memory_value_inverse =
      (if s'.register.memory_value = 0 then 0 else s'.register.memory_value⁻¹) := by
  unfold Interp.refresh at h
  cases h1 : s.fetch with
  | error e => rw [h1] at h; cases h
  | ok a =>
    cases h2 : s.fetchNext with
    | error e => rw [h1, h2] at h; cases h
    | ok b =>
      cases h3 : Interp.idx s.memory s.register.mp with
      | error e => rw [h1, h2, h3] at h; cases h
      | ok v =>
        rw [h1, h2, h3] at h
        cases h
        obtain ⟨h4, h5⟩ := idx_ok h3
        exact ⟨rfl, rfl, rfl, rfl, rfl, rfl, rfl, rfl, h4, h5, rfl⟩

/-- Invariant for C07. -/
structure CellInv (bits n : Nat) (s : Interp) : Prop where
  width : s.bits = bits
  cells : ∀ v ∈ s.memory, v.val < 2 ^ bits
  inputs : ∀ v ∈ s.input, v.val < 2 ^ bits
  ptr : s.register.memory_pointer.val < s.memory.length
  len : s.memory.length ≤ n + 1

theorem set_cells {bits : Nat} {l : List Fr} {i : Nat} {v : Fr} (h : ∀ v ∈ l, v.val < 2 ^ bits)
    (hv : v.val < 2 ^ bits) : ∀ u ∈ l.set i v, u.val < 2 ^ bits := by
  intro u hu
  rcases List.mem_or_eq_of_mem_set hu with hu | rfl
  · exact h u hu
  · exact hv

theorem val_add_one {a : Fr} (h : a.val < 2 ^ 64) : (a + 1).val = a.val + 1 := by
  have e : a + 1 = ((a.val + 1 : Nat) : Fr) := by
    rw [Nat.cast_add, ZMod.natCast_val, ZMod.cast_id]; simp
  rw [e, Fr.val_cast (lt_P_of_lt (k := 65) (by omega) (by norm_num))]

theorem val_sub_one {a : Fr} (h : a ≠ 0) : (a - 1).val = a.val - 1 := by
  have hpos : 0 < a.val := by
    rcases Nat.eq_zero_or_pos a.val with h0 | h0
    · exact absurd ((ZMod.val_eq_zero a).1 h0) h
    · exact h0
  have e : a - 1 = ((a.val - 1 : Nat) : Fr) := by
    rw [Nat.cast_sub (by omega), ZMod.natCast_val, ZMod.cast_id]; simp
  rw [e, Fr.val_cast (by have := ZMod.val_lt a; omega)]

theorem CellInv.step {bits n : Nat} {s s' : Interp} (h : CellInv bits n s) (hb : bits < 64)
    (hn : n < 2 ^ 62) (hs : s.step = .ok s') : CellInv bits (n + 1) s' := by
  have hlen := h.len
  have hptr := h.ptr
  have hpow : 2 ^ bits ≤ 2 ^ 63 := Nat.pow_le_pow_right (by norm_num) (by omega)
  have h2 : 0 < 2 ^ bits := Nat.pow_pos (by norm_num)
  have hmax : s.cellMax.val = 2 ^ bits - 1 := by
    unfold Interp.cellMax
    rw [h.width, Fr.val_cast (lt_P_of_lt (k := 64) (by omega) (by norm_num))]
  have hz : ((0 : Fr)).val < 2 ^ bits := by rw [ZMod.val_zero]; exact h2
  have hmpU : s.register.mp = s.register.memory_pointer.val := by
    unfold Register.mp Fr.toUsize
    rw [Nat.mod_eq_of_lt (by omega), Nat.mod_eq_of_lt (by omega)]
  unfold Interp.step at hs
  cases he : Interp.exec s.record with
  | error e => rw [he] at hs; cases hs
  | ok s1 =>
    rw [he] at hs
    have hr := refresh_ok hs
    obtain ⟨-, r1, r2, -, r3, r4, -, -, r5, -, -⟩ := hr
    -- it is enough to prove the invariant after `exec`, apart from the `<` instruction
    suffices hsuf : s1.bits = bits ∧ (∀ v ∈ s1.memory, v.val < 2 ^ bits) ∧
        (∀ v ∈ s1.input, v.val < 2 ^ bits) ∧ s1.register.memory_pointer.val < s1.memory.length ∧
        s1.memory.length ≤ n + 1 + 1 by
      obtain ⟨a1, a2, a3, a4, a5⟩ := hsuf
      exact ⟨by rw [r3, a1], by rw [r2]; exact a2, by rw [r1]; exact a3, by rw [r4, r2]; exact a4,
        by rw [r2]; exact a5⟩
    have hrec : s.record.bits = s.bits ∧ s.record.memory = s.memory ∧ s.record.input = s.input ∧
      s.record.register = s.register ∧ s.record.cellMax = s.cellMax := ⟨rfl, rfl, rfl, rfl, rfl⟩
    obtain ⟨b1, b2, b3, b4, b5⟩ := hrec
    unfold Interp.exec at he
    simp only [b2, b3, b4, b5] at he
    by_cases c1 : s.register.current_instruction.toU8 = SHL.toNat
    · rw [if_pos c1] at he
      cases he
      refine ⟨h.width, h.cells, h.inputs, ?_, by simp [Interp.advance]; omega⟩
      have hm : (s.register.memory_pointer - 1).toUsize < s.memory.length := r5
      show (s.register.memory_pointer - 1).val < s.memory.length
      by_cases h0 : s.register.memory_pointer = 0
      · exfalso
        rw [h0, zero_sub, Fr.toUsize_neg_one] at hm
        omega
      · rw [val_sub_one h0]; omega
    rw [if_neg c1] at he
    by_cases c2 : s.register.current_instruction.toU8 = SHR.toNat
    · rw [if_pos c2] at he
      cases he
      have hv := val_add_one (a := s.register.memory_pointer) (by omega)
      have hmp1 : (s.register.memory_pointer + 1).toUsize = s.register.memory_pointer.val + 1 := by
        unfold Fr.toUsize
        rw [hv, Nat.mod_eq_of_lt (by omega), Nat.mod_eq_of_lt (by omega)]
      by_cases hg : s.register.memory_pointer.val + 1 = s.memory.length
      · have hcond : Register.mp { s.register with
            memory_pointer := s.register.memory_pointer + 1 } = s.memory.length := by
          unfold Register.mp; rw [hmp1, hg]
        rw [if_pos hcond]
        refine ⟨h.width, ?_, h.inputs, ?_, ?_⟩
        · intro v hv'
          have : v ∈ s.memory ++ [0] := hv'
          rcases List.mem_append.1 this with h1 | h1
          · exact h.cells v h1
          · simp at h1; subst h1; exact hz
        · show (s.register.memory_pointer + 1).val < (s.memory ++ [0]).length
          rw [hv]; simp; omega
        · show (s.memory ++ [0]).length ≤ n + 1 + 1
          simp; omega
      · have hcond : ¬ Register.mp { s.register with
            memory_pointer := s.register.memory_pointer + 1 } = s.memory.length := by
          unfold Register.mp; rw [hmp1]; exact hg
        rw [if_neg hcond]
        refine ⟨h.width, h.cells, h.inputs, ?_, by simp [Interp.advance]; omega⟩
        show (s.register.memory_pointer + 1).val < s.memory.length
        rw [hv]; omega
    rw [if_neg c2] at he
    by_cases c3 : s.register.current_instruction.toU8 = ADD.toNat
    · rw [if_pos c3] at he
      cases hx : Interp.idx s.memory s.register.mp with
      | error e => rw [hx] at he; cases he
      | ok v =>
        rw [hx] at he
        simp only [bind, Except.bind] at he
        cases hy : Interp.put s.memory s.register.mp (if v = s.cellMax then 0 else v + 1) with
        | error e => rw [hy] at he; cases he
        | ok m =>
          rw [hy] at he
          cases he
          obtain ⟨-, rfl⟩ := put_ok hy
          have hvlt := h.cells v (List.mem_of_getElem? (idx_ok hx).2)
          refine ⟨h.width, set_cells h.cells ?_, h.inputs, ?_, ?_⟩
          · split_ifs with hv
            · exact hz
            · have hne : v.val ≠ 2 ^ bits - 1 := fun e => hv (ZMod.val_injective P (by rw [hmax, e]))
              rw [val_add_one (by omega)]; omega
          · show s.register.memory_pointer.val < (s.memory.set _ _).length
            rw [List.length_set]; exact hptr
          · show (s.memory.set _ _).length ≤ _
            rw [List.length_set]; omega
    rw [if_neg c3] at he
    by_cases c4 : s.register.current_instruction.toU8 = SUB.toNat
    · rw [if_pos c4] at he
      cases hx : Interp.idx s.memory s.register.mp with
      | error e => rw [hx] at he; cases he
      | ok v =>
        rw [hx] at he
        simp only [bind, Except.bind] at he
        cases hy : Interp.put s.memory s.register.mp (if v = 0 then s.cellMax else v - 1) with
        | error e => rw [hy] at he; cases he
        | ok m =>
          rw [hy] at he
          cases he
          obtain ⟨-, rfl⟩ := put_ok hy
          have hvlt := h.cells v (List.mem_of_getElem? (idx_ok hx).2)
          refine ⟨h.width, set_cells h.cells ?_, h.inputs, ?_, ?_⟩
          · split_ifs with hv
            · rw [hmax]; omega
            · rw [val_sub_one hv]; omega
          · show s.register.memory_pointer.val < (s.memory.set _ _).length
            rw [List.length_set]; exact hptr
          · show (s.memory.set _ _).length ≤ _
            rw [List.length_set]; omega
    rw [if_neg c4] at he
    by_cases c5 : s.register.current_instruction.toU8 = GETCHAR.toNat
    · rw [if_pos c5] at he
      cases hin : s.input with
      | nil => rw [hin] at he; cases he
      | cons c rest =>
        rw [hin] at he
        simp only [bind, Except.bind] at he
        cases hy : Interp.put s.memory s.register.mp c with
        | error e => rw [hy] at he; cases he
        | ok m =>
          rw [hy] at he
          cases he
          obtain ⟨-, rfl⟩ := put_ok hy
          refine ⟨h.width, set_cells h.cells (h.inputs c (by rw [hin]; simp)), ?_, ?_, ?_⟩
          · intro v hv; exact h.inputs v (by rw [hin]; exact List.mem_cons_of_mem _ hv)
          · show s.register.memory_pointer.val < (s.memory.set _ _).length
            rw [List.length_set]; exact hptr
          · show (s.memory.set _ _).length ≤ _
            rw [List.length_set]; omega
    rw [if_neg c5] at he
    have keep : ∀ s2 : Interp, s2.bits = s.bits → s2.memory = s.memory → s2.input = s.input →
        s2.register.memory_pointer = s.register.memory_pointer →
        s2.bits = bits ∧ (∀ v ∈ s2.memory, v.val < 2 ^ bits) ∧
        (∀ v ∈ s2.input, v.val < 2 ^ bits) ∧ s2.register.memory_pointer.val < s2.memory.length ∧
        s2.memory.length ≤ n + 1 + 1 := by
      intro s2 e1 e2 e3 e4
      rw [e1, e2, e3, e4]
      exact ⟨h.width, h.cells, h.inputs, hptr, by omega⟩
    by_cases c6 : s.register.current_instruction.toU8 = PUTCHAR.toNat
    · rw [if_pos c6] at he
      cases he
      exact keep _ rfl rfl rfl rfl
    rw [if_neg c6] at he
    by_cases c7 : s.register.current_instruction.toU8 = LB.toNat
    · rw [if_pos c7] at he
      cases hx : Interp.idx s.memory s.register.mp with
      | error e => rw [hx] at he; cases he
      | ok v =>
        rw [hx] at he
        simp only [bind, Except.bind] at he
        split_ifs at he with hv
        · cases hy : Interp.idx s.record.code (s.register.ip + 1) with
          | error e => rw [hy] at he; cases he
          | ok t => rw [hy] at he; cases he; exact keep _ rfl rfl rfl rfl
        · cases he; exact keep _ rfl rfl rfl rfl
    rw [if_neg c7] at he
    by_cases c8 : s.register.current_instruction.toU8 = RB.toNat
    · rw [if_pos c8] at he
      cases hx : Interp.idx s.memory s.register.mp with
      | error e => rw [hx] at he; cases he
      | ok v =>
        rw [hx] at he
        simp only [bind, Except.bind] at he
        split_ifs at he with hv
        · cases hy : Interp.idx s.record.code (s.register.ip + 1) with
          | error e => rw [hy] at he; cases he
          | ok t => rw [hy] at he; cases he; exact keep _ rfl rfl rfl rfl
        · cases he; exact keep _ rfl rfl rfl rfl
    rw [if_neg c8] at he
    cases he

theorem programRows_eq (code : List Fr) :
    Interp.programRows code = (List.range code.length).map (programRow code) := by
  unfold Interp.programRows
  apply List.map_congr_left
  intro i hi
  have hi := List.mem_range.1 hi
  unfold programRow
  by_cases h : i = code.length - 1
  · rw [if_pos h]
    rw [List.getD_eq_getElem?_getD (i := i + 1), List.getElem?_eq_none (by omega)]; rfl
  · rw [if_neg h]

theorem getD_cast (l : List Nat) (i : Nat) : (W.cast l).getD i 0 = ((l.getD i 0 : Nat) : Fr) := by
  rw [List.getD_eq_getElem?_getD, List.getD_eq_getElem?_getD, W.getElem?_cast]
  cases l[i]? <;> simp

/-- `exec` keeps the recorded rows of the processor table. -/
theorem exec_processor {s s' : Interp} (h : s.exec = .ok s') :
    s'.matrix.processor = s.matrix.processor := by
  unfold Interp.exec at h
  simp only at h
  split at h
  · cases h; rfl
  split at h
  · cases h; simp only [Interp.advance]; split_ifs <;> rfl
  split at h
  · cases hx : Interp.idx s.memory s.register.mp with
    | error e => rw [hx] at h; cases h
    | ok v =>
      rw [hx] at h
      simp only [bind, Except.bind] at h
      split at h
      · cases h
      · cases h; rfl
  split at h
  · cases hx : Interp.idx s.memory s.register.mp with
    | error e => rw [hx] at h; cases h
    | ok v =>
      rw [hx] at h
      simp only [bind, Except.bind] at h
      split at h
      · cases h
      · cases h; rfl
  split at h
  · cases hin : s.input with
    | nil => rw [hin] at h; cases h
    | cons c rest =>
      rw [hin] at h
      simp only [bind, Except.bind] at h
      split at h
      · cases h
      · cases h; rfl
  split at h
  · cases h; rfl
  split at h
  · cases hx : Interp.idx s.memory s.register.mp with
    | error e => rw [hx] at h; cases h
    | ok v =>
      rw [hx] at h
      simp only [bind, Except.bind] at h
      split_ifs at h
      · split at h
        · cases h
        · cases h; rfl
      · cases h; rfl
  split at h
  · cases hx : Interp.idx s.memory s.register.mp with
    | error e => rw [hx] at h; cases h
    | ok v =>
      rw [hx] at h
      simp only [bind, Except.bind] at h
      split_ifs at h
      · split at h
        · cases h
        · cases h; rfl
      · cases h; rfl
  · cases h

/-- The interpreter with more input behind what it has. -/
def moreInput (s : Interp) (ext : List Fr) : Interp := { s with input := s.input ++ ext }

theorem exec_more {s s' : Interp} (ext : List Fr) (h : s.exec = .ok s') :
    (moreInput s ext).exec = .ok (moreInput s' ext) := by
  unfold Interp.exec at h ⊢
  simp only at h ⊢
  have e1 : (moreInput s ext).register = s.register := rfl
  have e2 : (moreInput s ext).memory = s.memory := rfl
  have e3 : (moreInput s ext).code = s.code := rfl
  have e4 : (moreInput s ext).cellMax = s.cellMax := rfl
  have e5 : (moreInput s ext).input = s.input ++ ext := rfl
  rw [e1, e2, e3, e4, e5]
  by_cases c1 : s.register.current_instruction.toU8 = SHL.toNat
  · rw [if_pos c1] at h ⊢; cases h; rfl
  rw [if_neg c1] at h ⊢
  by_cases c2 : s.register.current_instruction.toU8 = SHR.toNat
  · rw [if_pos c2] at h ⊢
    cases h
    split_ifs <;> rfl
  rw [if_neg c2] at h ⊢
  by_cases c3 : s.register.current_instruction.toU8 = ADD.toNat
  · rw [if_pos c3] at h ⊢
    cases hx : Interp.idx s.memory s.register.mp with
    | error e => rw [hx] at h; cases h
    | ok v =>
      rw [hx] at h
      simp only [bind, Except.bind] at h ⊢
      cases hy : Interp.put s.memory s.register.mp (if v = s.cellMax then 0 else v + 1) with
      | error e => rw [hy] at h; cases h
      | ok m => rw [hy] at h; cases h; rfl
  rw [if_neg c3] at h ⊢
  by_cases c4 : s.register.current_instruction.toU8 = SUB.toNat
  · rw [if_pos c4] at h ⊢
    cases hx : Interp.idx s.memory s.register.mp with
    | error e => rw [hx] at h; cases h
    | ok v =>
      rw [hx] at h
      simp only [bind, Except.bind] at h ⊢
      cases hy : Interp.put s.memory s.register.mp (if v = 0 then s.cellMax else v - 1) with
      | error e => rw [hy] at h; cases h
      | ok m => rw [hy] at h; cases h; rfl
  rw [if_neg c4] at h ⊢
  by_cases c5 : s.register.current_instruction.toU8 = GETCHAR.toNat
  · rw [if_pos c5] at h ⊢
    cases hin : s.input with
    | nil => rw [hin] at h; cases h
    | cons c rest =>
      rw [hin] at h
      rw [List.cons_append]
      simp only [bind, Except.bind] at h ⊢
      cases hy : Interp.put s.memory s.register.mp c with
      | error e => rw [hy] at h; cases h
      | ok m => rw [hy] at h; cases h; rfl
  rw [if_neg c5] at h ⊢
  by_cases c6 : s.register.current_instruction.toU8 = PUTCHAR.toNat
  · rw [if_pos c6] at h ⊢; cases h; rfl
  rw [if_neg c6] at h ⊢
  by_cases c7 : s.register.current_instruction.toU8 = LB.toNat
  · rw [if_pos c7] at h ⊢
    cases hx : Interp.idx s.memory s.register.mp with
    | error e => rw [hx] at h; cases h
    | ok v =>
      rw [hx] at h
      simp only [bind, Except.bind] at h ⊢
      split_ifs at h ⊢ with hv
      · cases hy : Interp.idx s.code (s.register.ip + 1) with
        | error e => rw [hy] at h; cases h
        | ok t => rw [hy] at h; cases h; rfl
      · cases h; rfl
  rw [if_neg c7] at h ⊢
  by_cases c8 : s.register.current_instruction.toU8 = RB.toNat
  · rw [if_pos c8] at h ⊢
    cases hx : Interp.idx s.memory s.register.mp with
    | error e => rw [hx] at h; cases h
    | ok v =>
      rw [hx] at h
      simp only [bind, Except.bind] at h ⊢
      split_ifs at h ⊢ with hv
      · cases hy : Interp.idx s.code (s.register.ip + 1) with
        | error e => rw [hy] at h; cases h
        | ok t => rw [hy] at h; cases h; rfl
      · cases h; rfl
  rw [if_neg c8] at h
  cases h

theorem refresh_more {s s' : Interp} (ext : List Fr) (h : s.refresh = .ok s') :
    (moreInput s ext).refresh = .ok (moreInput s' ext) := by
  unfold Interp.refresh at h ⊢
  have e1 : (moreInput s ext).fetch = s.fetch := rfl
  have e2 : (moreInput s ext).fetchNext = s.fetchNext := rfl
  have e3 : (moreInput s ext).memory = s.memory := rfl
  have e4 : (moreInput s ext).register = s.register := rfl
  rw [e1, e2, e3, e4]
  cases h1 : s.fetch with
  | error e => rw [h1] at h; cases h
  | ok a =>
    cases h2 : s.fetchNext with
    | error e => rw [h1, h2] at h; cases h
    | ok b =>
      cases h3 : Interp.idx s.memory s.register.mp with
      | error e => rw [h1, h2, h3] at h; cases h
      | ok v => rw [h1, h2, h3] at h; cases h; rfl

theorem loop_more (ext : List Fr) : ∀ (n : Nat) (s s' : Interp),
    Interp.loop n s = some (.ok s') →
    Interp.loop n (moreInput s ext) = some (.ok (moreInput s' ext)) := by
  intro n
  induction n with
  | zero =>
    intro s s' h
    unfold Interp.loop at h ⊢
    have e : (moreInput s ext).halted = s.halted := rfl
    rw [e]
    split_ifs at h ⊢ with hh
    cases h; rfl
  | succ n ih =>
    intro s s' h
    unfold Interp.loop at h ⊢
    have e : (moreInput s ext).halted = s.halted := rfl
    rw [e]
    split_ifs at h ⊢ with hh
    · cases h; rfl
    · cases hs : s.step with
      | error e => rw [hs] at h; cases h
      | ok s1 =>
        rw [hs] at h
        have : (moreInput s ext).step = .ok (moreInput s1 ext) := by
          unfold Interp.step at hs ⊢
          have er : (moreInput s ext).record = moreInput s.record ext := rfl
          rw [er]
          cases he : Interp.exec s.record with
          | error e => rw [he] at hs; cases hs
          | ok s2 =>
            rw [he] at hs
            rw [exec_more ext he]
            exact refresh_more ext hs
        rw [this]
        exact ih s1 s' h

theorem values_small {p : List Cmd} {bits : Nat} {input : List Nat} {m : Nat} {t : State}
    (hi : GoodInput bits input) (hs : Steps p bits m (BF.init input) t) :
    (∀ i, t.tape i < 2 ^ bits) ∧ (∀ v ∈ t.output, v < 2 ^ bits) ∧ (∀ v ∈ t.input, v < 2 ^ bits) := by
  have h2 : 0 < 2 ^ bits := Nat.pow_pos (by norm_num)
  generalize h0 : BF.init input = s0 at hs
  induction hs with
  | zero s =>
    subst h0
    exact ⟨fun _ => h2, by simp [BF.init], hi⟩
  | @succ n s t u h1 hstep ih =>
    obtain ⟨a, b, c⟩ := ih h0
    have set : ∀ v, v < 2 ^ bits → ∀ i, setCell t.tape t.ptr v i < 2 ^ bits := by
      intro v hv i
      unfold setCell
      split_ifs
      · exact hv
      · exact a i
    cases hstep with
    | left => exact ⟨a, b, c⟩
    | right => exact ⟨a, b, c⟩
    | inc => exact ⟨set _ (Nat.mod_lt _ h2), b, c⟩
    | dec => exact ⟨set _ (Nat.mod_lt _ h2), b, c⟩
    | get v rest _ hin =>
      exact ⟨set _ (c v (by rw [hin]; simp)), b,
        fun x hx => c x (by rw [hin]; exact List.mem_cons_of_mem _ hx)⟩
    | put =>
      refine ⟨a, fun v hv => ?_, c⟩
      rcases List.mem_append.1 hv with h | h
      · exact b v h
      · simp at h; rw [h]; exact a _
    | openSkip => exact ⟨a, b, c⟩
    | openEnter => exact ⟨a, b, c⟩
    | closeBack => exact ⟨a, b, c⟩
    | closeLeave => exact ⟨a, b, c⟩

end Verif.Props
