import Verif.Lemmas.HonestCircuit
import Verif.Props.Gates

/-! Properties C13–C16: the circuit accepts honest traces. -/

namespace Verif.Props

open BF Spec

/-- C13. The tables of a finished run, loaded by `load_table` with any public inputs it does not
reject, make every gate polynomial vanish on every row, for every choice of challenges and whatever
is in the unusable rows. -/
theorem C13_gates (checks : Bool) (src : List UInt8) (code : List Fr) (input : List Nat) (n : Nat)
    (s : Interp) (rows : Nat) (ch : Nat → Fr) (inst : Nat → List Fr) (a : Assembly) (g : Grid)
    (hp : GoodProgram checks src code) (hi : GoodInput 8 input) (hn : n ≤ 2 ^ 62)
    (hr : runOn n 8 code input = some (.ok s))
    (ha : synthesize rows s.matrix ch inst = .ok a) (hg : Completes rows a ch inst g) :
    ∀ gate ∈ mainCS.gates, ∀ p ∈ gate, ∀ row, row < rows → p.eval rows g row = 0 := by
  obtain ⟨as, vin, vcode, hf⟩ := filled ha hg
  exact gates_iff.2 (fun row _ => hf.rules (honest_rows hp hi hn hr) row)

/-- C15, what is true of the code: for a finished run, loaded against the public inputs the prover
binary uses, the circuit accepts exactly when the run has read its whole input. (The full C15 would
have no condition on the unread input; it is refuted below.) -/
theorem C15_accepts_iff_input_read_partial (checks : Bool) (src : List UInt8) (code : List Fr)
    (input : List Nat) (n : Nat) (s : Interp) (rows : Nat) (ch : Nat → Fr) (a : Assembly) (g : Grid)
    (hp : GoodProgram checks src code) (hi : GoodInput 8 input) (hn : n ≤ 2 ^ 62)
    (hlen : input.length < 2 ^ 64) (hr : runOn n 8 code input = some (.ok s))
    (ha : synthesize rows s.matrix ch (publicInputs code (toFr input)) = .ok a)
    (hg : Completes rows a ch (publicInputs code (toFr input)) g) :
    Satisfied mainCS rows g a.copies ↔ s.input = [] := by
  obtain ⟨as, vin, vcode, hf⟩ := filled ha hg
  obtain ⟨wcode, hist, w, m, t, h⟩ := finished_of_run hp (by norm_num) hi hn hr
  rw [← honest_copies hp hi hn hlen hr hf, synthesize_copies ha]
  constructor
  · intro hs; exact hs.copies
  · intro hc
    exact ⟨C13_gates checks src code input n s rows ch _ a g hp hi hn hr ha hg,
      lookups_iff.2 (honest_lookup hi h hf), hc⟩

/-- C14. When the finished run has read its whole input, the whole circuit (gates, lookup, copy
constraints) accepts against the public inputs `[len]++code` and `[len]++input`. -/
theorem C14_satisfied (checks : Bool) (src : List UInt8) (code : List Fr)
    (input : List Nat) (n : Nat) (s : Interp) (rows : Nat) (ch : Nat → Fr) (inst : Nat → List Fr)
    (a : Assembly) (g : Grid)
    (hp : GoodProgram checks src code) (hi : GoodInput 8 input) (hn : n ≤ 2 ^ 62)
    (hlen : input.length < 2 ^ 64) (hr : runOn n 8 code input = some (.ok s))
    (hread : s.input = [])
    (h0 : inst 0 = (code.length : Fr) :: code)
    (h1 : inst 1 = (input.length : Fr) :: toFr input)
    (h2 : ∀ i, 2 ≤ i → inst i = [])
    (ha : synthesize rows s.matrix ch inst = .ok a) (hg : Completes rows a ch inst g) :
    Satisfied mainCS rows g a.copies := by
  have e : inst = publicInputs code (toFr input) := by
    funext i
    rcases i with _ | _ | i
    · exact h0
    · rw [h1]
      show _ = (((toFr input).length : Nat) : Fr) :: toFr input
      rw [toFr_length]
    · exact h2 _ (by omega)
  subst e
  exact (C15_accepts_iff_input_read_partial checks src code input n s rows ch a g hp hi hn hlen hr
    ha hg).2 hread

/-- C16, what is true of the code: the exact room synthesis of an honest trace needs, in the number
of rows. -/
theorem C16_room_partial (checks : Bool) (src : List UInt8) (code : List Fr) (input : List Nat)
    (n : Nat) (s : Interp) (rows : Nat) (ch : Nat → Fr)
    (hp : GoodProgram checks src code) (hi : GoodInput 8 input) (hn : n ≤ 2 ^ 62)
    (hr : runOn n 8 code input = some (.ok s)) :
    (∃ a, synthesize rows s.matrix ch (publicInputs code (toFr input)) = .ok a) ↔
      263 ≤ rows ∧ s.matrix.instruction.length + 7 ≤ rows ∧ input.length + 7 ≤ rows :=
  honest_room hp hi hn hr rows ch

/-- C16, what is true of the code: with the `k` of the prover binary, an honest trace of a run that
read its whole input fits exactly when the instruction table leaves 7 rows free below `2^k`. (The
full C16 would have no such condition; it is refuted below.) -/
theorem C16_choice_partial (checks : Bool) (src : List UInt8) (code : List Fr) (input : List Nat)
    (n : Nat) (s : Interp) (ch : Nat → Fr)
    (hp : GoodProgram checks src code) (hi : GoodInput 8 input) (hn : n ≤ 2 ^ 62)
    (hr : runOn n 8 code input = some (.ok s)) (hread : s.input = []) :
    (∃ a, synthesize (2 ^ chooseK s.matrix.instruction.length) s.matrix ch
        (publicInputs code (toFr input)) = .ok a) ↔
      s.matrix.instruction.length + 7 ≤ 2 ^ chooseK s.matrix.instruction.length := by
  rw [honest_room hp hi hn hr]
  obtain ⟨l1, l2, l3, l4, l5, l6⟩ := honest_lengths hp hi hn hr
  have h9 : 2 ^ 9 ≤ 2 ^ chooseK s.matrix.instruction.length :=
    Nat.pow_le_pow_right (by norm_num) (le_max_right _ _)
  rw [hread, List.length_nil] at l5
  constructor
  · rintro ⟨-, h, -⟩; exact h
  · intro h
    exact ⟨by omega, h, by omega⟩

/-! ### Refutations -/

/-- A run evaluated by the kernel gives the state it ends in. -/
theorem ok_of_map {α : Type} {r : Option (Except Panic Interp)} {f : Interp → α} {x : α}
    (h : r.map (fun r => r.map f) = some (.ok x)) : ∃ s, r = some (.ok s) ∧ f s = x := by
  cases r with
  | none => cases h
  | some r =>
    cases r with
    | error e => cases h
    | ok s =>
      refine ⟨s, rfl, ?_⟩
      simpa [Except.map] using h

/-- `+` -/
def plusCode : List Fr := toFr [43]

theorem plus_good : GoodProgram true [43] plusCode := ⟨by decide, by decide, by decide, by decide⟩

/-- C15 is false of the code: the program `+` on the input `a` finishes and leaves the byte unread,
the tables load into 512 rows, and no completion of them satisfies the circuit, whatever the
challenges. -/
theorem C15_false :
    ∃ (src : List UInt8) (code : List Fr) (input : List Nat) (n : Nat) (s : Interp),
      GoodProgram true src code ∧ GoodInput 8 input ∧ n ≤ 2 ^ 62 ∧ input.length < 2 ^ 64 ∧
      runOn n 8 code input = some (.ok s) ∧
      ∀ ch, ∃ a, synthesize (2 ^ chooseK s.matrix.instruction.length) s.matrix ch
          (publicInputs code (toFr input)) = .ok a ∧
        ∀ g, Completes (2 ^ chooseK s.matrix.instruction.length) a ch
            (publicInputs code (toFr input)) g →
          ¬ Satisfied mainCS (2 ^ chooseK s.matrix.instruction.length) g a.copies := by
  have h : ((runOn 10 8 plusCode [97]).map (fun r => r.map (fun s =>
      (s.matrix.processor.length, s.input)))) = some (.ok (2, [97])) := by decide +kernel
  obtain ⟨s, hs, e⟩ := ok_of_map h
  have hg : GoodInput 8 [97] := by unfold GoodInput; decide
  have hp1 : s.matrix.processor.length = 2 := congrArg Prod.fst e
  have hin : s.input = [97] := congrArg Prod.snd e
  have l1 := (honest_lengths plus_good hg (by norm_num) hs).1
  have l3 : s.matrix.instruction.length = 3 := by rw [l1, hp1]; rfl
  have hk : chooseK s.matrix.instruction.length = 9 := by rw [l3]; decide +kernel
  refine ⟨[43], plusCode, [97], 10, s, plus_good, hg, by norm_num, by norm_num, hs, ?_⟩
  intro ch
  rw [hk]
  obtain ⟨a, ha⟩ := (honest_room plus_good hg (by norm_num) hs (2 ^ 9) ch).2
    ⟨by norm_num, by rw [l3]; norm_num, by norm_num⟩
  refine ⟨a, ha, ?_⟩
  intro g hgr hsat
  have := (C15_accepts_iff_input_read_partial true [43] plusCode [97] 10 s (2 ^ 9) ch a g plus_good hg
    (by norm_num) (by norm_num) hs ha hgr).1 hsat
  rw [hin] at this
  cases this

/-- 255 times `+` -/
def plus255 : List UInt8 := List.replicate 255 43

theorem plus255_good : GoodProgram true plus255 (toFr (List.replicate 255 43)) :=
  ⟨by decide +kernel, by decide +kernel, by decide +kernel, by decide +kernel⟩

/-- C16 is false of the code: 255 times `+` (no input) finishes with an instruction table of 511
rows; the prover binary chooses k = 9, that is 512 rows, and synthesis fails. -/
theorem C16_false :
    ∃ (src : List UInt8) (code : List Fr) (n : Nat) (s : Interp),
      GoodProgram true src code ∧ n ≤ 2 ^ 62 ∧ runOn n 8 code [] = some (.ok s) ∧
      s.matrix.instruction.length = 511 ∧ chooseK s.matrix.instruction.length = 9 ∧
      ∀ ch, ¬ ∃ a, synthesize (2 ^ chooseK s.matrix.instruction.length) s.matrix ch
          (publicInputs code []) = .ok a := by
  have h : ((runOn 300 8 (toFr (List.replicate 255 43)) []).map (fun r => r.map (fun s =>
      s.matrix.processor.length))) = some (.ok 256) := by decide +kernel
  obtain ⟨s, hs, e⟩ := ok_of_map h
  have hg : GoodInput 8 [] := by unfold GoodInput; decide
  have l1 := (honest_lengths plus255_good hg (by norm_num) hs).1
  have l3 : s.matrix.instruction.length = 511 := by
    rw [l1, e, toFr_length, List.length_replicate]
  have hk : chooseK s.matrix.instruction.length = 9 := by rw [l3]; decide +kernel
  refine ⟨plus255, _, 300, s, plus255_good, by norm_num, hs, l3, hk, ?_⟩
  intro ch hex
  have := (honest_room plus255_good hg (by norm_num) hs _ ch).1 hex
  rw [hk, l3] at this
  omega

/-! ### Concrete cases -/

/-- The demo program `,+[->+<]>.` on input 2: its run finishes having read the whole input, its
tables load into 512 rows for all challenges, and every completion satisfies the circuit. So the
hypotheses of C13, C14 and of the partial theorems are met. -/
theorem demo_accepted (ch : Nat → Fr) : ∃ s a g, runOn 100 8 demoCode [2] = some (.ok s) ∧ s.input = [] ∧
    synthesize (2 ^ chooseK s.matrix.instruction.length) s.matrix ch
      (publicInputs demoCode (toFr [2])) = .ok a ∧
    Completes (2 ^ chooseK s.matrix.instruction.length) a ch (publicInputs demoCode (toFr [2])) g ∧
    Satisfied mainCS (2 ^ chooseK s.matrix.instruction.length) g a.copies := by
  have h : ((runOn 100 8 demoCode [2]).map (fun r => r.map (fun s =>
      (s.matrix.processor.length, s.input)))) = some (.ok (21, [])) := by decide +kernel
  obtain ⟨s, hs, e⟩ := ok_of_map h
  have hp1 : s.matrix.processor.length = 21 := congrArg Prod.fst e
  have hin : s.input = [] := congrArg Prod.snd e
  have l1 := (honest_lengths demo_good demo_input (by norm_num) hs).1
  have l3 : s.matrix.instruction.length = 33 := by rw [l1, hp1]; rfl
  have hk : chooseK s.matrix.instruction.length = 9 := by rw [l3]; decide +kernel
  obtain ⟨a, ha⟩ := (C16_choice_partial true demo demoCode [2] 100 s ch demo_good demo_input
    (by norm_num) hs hin).2 (by rw [hk, l3]; norm_num)
  obtain ⟨g, hg⟩ := completion (2 ^ chooseK s.matrix.instruction.length) a ch
    (publicInputs demoCode (toFr [2]))
  exact ⟨s, a, g, hs, hin, ha, hg, (C15_accepts_iff_input_read_partial true demo demoCode [2] 100 s _
    ch a g demo_good demo_input (by norm_num) (by norm_num) hs ha hg).2 hin⟩

/-- The hypotheses of C18 are met: in the accepted assignment of the demo, the first row has the
step selector, the lookup is on in the first two rows, the range table holds bytes, and the current
instruction is `,`. -/
example : ∃ n g copies, Satisfied mainCS n g copies ∧ ByteTable n g ∧ 1 < mainCS.usableRows n ∧
    g.selector mainConfig.p.sP.index 0 = true ∧ g.selector mainConfig.p.sC.index 0 = true ∧
    g.selector mainConfig.p.sLookup.index 0 = true ∧
    g.selector mainConfig.p.sLookup.index 1 = true ∧ (row g 0).ci = frOfByte 44 := by
  have h : ((runOn 100 8 demoCode [2]).map (fun r => r.map (fun s =>
      (s.matrix.processor.length, (s.matrix.processor.map (·.current_instruction)).head?)))) =
      some (.ok (21, some 44)) := by decide +kernel
  obtain ⟨s, a, g, hs, -, ha, hg, hsat⟩ := demo_accepted (fun _ => 0)
  obtain ⟨s', hs', e⟩ := ok_of_map h
  rw [hs] at hs'
  cases hs'
  have hlen : s.matrix.processor.length = 21 := congrArg Prod.fst e
  have hci : (s.matrix.processor.map (·.current_instruction)).head? = some 44 := congrArg Prod.snd e
  obtain ⟨as, vin, vcode, hf⟩ := filled ha hg
  refine ⟨_, g, _, hsat, ?_, ?_, ?_, ?_, ?_, ?_, ?_⟩
  · intro r hr
    rw [mainCS_usable] at hr
    show (g.fixed 0 r).val < 256
    rw [hf.fixed r hr]
    by_cases h256 : r < 256
    · rw [if_pos h256, Fr.val_cast (lt_P_of_lt (k := 8) h256 (by norm_num))]; exact h256
    · rw [if_neg h256, ZMod.val_zero]; norm_num
  · rw [mainCS_usable]; have := hf.room; omega
  · show g.selector 2 0 = true
    rw [hf.procStep 2 (by omega), hlen]; rfl
  · show g.selector 1 0 = true
    rw [hf.procSel 1 (by omega), hlen]; rfl
  · show g.selector 0 0 = true
    rw [hf.procSel 0 (by omega), hlen]; rfl
  · show g.selector 0 1 = true
    rw [hf.procSel 0 (by omega), hlen]; rfl
  · show g.advice 1 0 = frOfByte 44
    cases hl : s.matrix.processor with
    | nil => rw [hl] at hlen; cases hlen
    | cons x l =>
      rw [hf.proc 1 (by omega) 0 x (by rw [hl]; rfl)]
      rw [hl] at hci
      have : x.current_instruction = 44 := by simpa using hci
      show x.current_instruction = _
      rw [this]
      decide +kernel

#print axioms C13_gates
#print axioms C14_satisfied
#print axioms C15_accepts_iff_input_read_partial
#print axioms C15_false
#print axioms C16_room_partial
#print axioms C16_choice_partial
#print axioms C16_false

end Verif.Props
