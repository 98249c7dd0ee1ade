import Verif.Spec.Shape
import Verif.Props.Circuit

/-!
Property C30: on what the verifying key depends.
-/

namespace Verif.Props

open Spec

theorem decide_lt_inj {a b : Nat} (h : ∀ r, decide (r < a) = decide (r < b)) : a = b := by
  have h1 := h a
  have h2 := h b
  simp only [lt_irrefl, decide_false, eq_comm (a := false), decide_eq_false_iff_not, not_lt] at h1
  simp only [lt_irrefl, decide_false, decide_eq_false_iff_not, not_lt] at h2
  omega

/-- C30, what holds: the selectors, copy constraints and fixed column of a circuit depend on the
lengths of the six tables of the trace, and on nothing else (not on the values in the tables, the
public inputs or the challenges). Missing for the full property: the lengths depend on the input. -/
theorem C30_shape_iff_lengths_partial (n : Nat) (mx mx' : Matrix) (ch ch' : Nat → Fr)
    (inst inst' : Nat → List Fr) (a a' : Assembly) (h : synthesize n mx ch inst = .ok a)
    (h' : synthesize n mx' ch' inst' = .ok a') :
    SameCircuit n a a' ↔ SameLengths mx mx' := by
  obtain ⟨g, hg⟩ := completion n a ch inst
  obtain ⟨g', hg'⟩ := completion n a' ch' inst'
  obtain ⟨as, vin, vc, f⟩ := filled h hg
  obtain ⟨as', vin', vc', f'⟩ := filled h' hg'
  have c := synthesize_copies h
  have c' := synthesize_copies h'
  have hns : mainCS.numSelectors = 15 := by decide +kernel
  have hnf : mainCS.numFixed = 1 := by decide +kernel
  constructor
  · intro hs
    have key : ∀ s, s < 15 → ∀ r, g.selector s r = g'.selector s r := by
      intro s hs' r
      rw [hg.selector, hg'.selector]
      exact hs.selector s (by omega) r
    refine ⟨?_, ?_, ?_, ?_, ?_, ?_⟩
    · exact decide_lt_inj fun r => by
        rw [← f.procSel 0 (by omega), ← f'.procSel 0 (by omega)]; exact key 0 (by omega) r
    · exact decide_lt_inj fun r => by
        rw [← f.memSel, ← f'.memSel]; exact key 7 (by omega) r
    · have := key 10 (by omega) mx.instruction.length
      rw [f.insAdhoc, f'.insAdhoc] at this
      simpa using this
    · exact decide_lt_inj fun r => by
        rw [← f.outSel, ← f'.outSel]; exact key 12 (by omega) r
    · exact decide_lt_inj fun r => by
        rw [← f.inpSel, ← f'.inpSel]; exact key 13 (by omega) r
    · exact decide_lt_inj fun r => by
        rw [← f.progSel, ← f'.progSel]; exact key 14 (by omega) r
  · intro hl
    refine ⟨?_, ?_, ?_⟩
    · intro s hs r
      rw [hns] at hs
      rw [← hg.selector, ← hg'.selector]
      have h0 := f.procSel
      have h0' := f'.procSel
      have h1 := f.procStep
      have h1' := f'.procStep
      have h2 := f.insStep
      have h2' := f'.insStep
      rw [hl.processor] at h0 h1
      rw [hl.instruction] at h2
      interval_cases s
      · rw [h0 0 (by omega), h0' 0 (by omega)]
      · rw [h0 1 (by omega), h0' 1 (by omega)]
      · rw [h1 2 (by omega), h1' 2 (by omega)]
      · rw [f.procFirst, f'.procFirst]
      · rw [h0 4 (by omega), h0' 4 (by omega)]
      · rw [h1 5 (by omega), h1' 5 (by omega)]
      · rw [f.memStep, f'.memStep, hl.memory]
      · rw [f.memSel, f'.memSel, hl.memory]
      · rw [h2 8 (by omega), h2' 8 (by omega)]
      · rw [h2 9 (by omega), h2' 9 (by omega)]
      · rw [f.insAdhoc, f'.insAdhoc, hl.instruction]
      · rw [h2 11 (by omega), h2' 11 (by omega)]
      · rw [f.outSel, f'.outSel, hl.output]
      · rw [f.inpSel, f'.inpSel, hl.input]
      · rw [f.progSel, f'.progSel, hl.program]
    · rw [c, c']
      unfold copyList
      rw [hl.processor, hl.memory, hl.instruction, hl.output, hl.input, hl.program]
    · intro k hk r hr
      rw [hnf] at hk
      obtain rfl : k = 0 := by omega
      rw [← hg.fixed 0 r hr, ← hg'.fixed 0 r hr]
      rw [mainCS_usable] at hr
      rw [f.fixed r hr, f'.fixed r hr]

/-- C30, what holds for one program: two of its runs have the same verifying key (at the same
circuit size) exactly when they take as many steps, write as many bytes and read as many bytes. -/
theorem C30_program_iff_partial (checks : Bool) (src : List UInt8) (code : List Fr)
    (input input' : List Nat) (m m' n : Nat) (s s' : Interp) (ch ch' : Nat → Fr) (a a' : Assembly)
    (hp : GoodProgram checks src code) (hi : GoodInput 8 input) (hi' : GoodInput 8 input')
    (hm : m ≤ 2 ^ 62) (hm' : m' ≤ 2 ^ 62) (hr : runOn m 8 code input = some (.ok s))
    (hr' : runOn m' 8 code input' = some (.ok s'))
    (h : synthesize n s.matrix ch (publicInputs code (toFr input)) = .ok a)
    (h' : synthesize n s'.matrix ch' (publicInputs code (toFr input')) = .ok a') :
    SameCircuit n a a' ↔
      s.matrix.processor.length = s'.matrix.processor.length ∧
      s.matrix.output.length = s'.matrix.output.length ∧
      s.matrix.input.length = s'.matrix.input.length := by
  rw [C30_shape_iff_lengths_partial n _ _ ch ch' _ _ a a' h h']
  obtain ⟨l1, l2, -, -, -, l3⟩ := honest_lengths hp hi hm hr
  obtain ⟨l1', l2', -, -, -, l3'⟩ := honest_lengths hp hi' hm' hr'
  constructor
  · intro hl; exact ⟨hl.processor, hl.output, hl.input⟩
  · rintro ⟨e1, e2, e3⟩
    exact ⟨e1, by omega, by omega, e2, e3, by omega⟩

/-- `,[-]` -/
def clearCode : List Fr := toFr [44, 91, 6, 45, 93, 3]

theorem clear_good : GoodProgram true [44, 91, 45, 93] clearCode :=
  ⟨by decide, by decide, by decide, by decide⟩

/-- C30 is false of the code: the program `,[-]` has different verifying keys on the inputs 1 and
2; both runs read their whole input and both circuits have 512 rows. -/
theorem C30_false :
    ∃ (src : List UInt8) (code : List Fr) (input input' : List Nat) (m : Nat) (s s' : Interp),
      GoodProgram true src code ∧ GoodInput 8 input ∧ GoodInput 8 input' ∧ m ≤ 2 ^ 62 ∧
      runOn m 8 code input = some (.ok s) ∧ runOn m 8 code input' = some (.ok s') ∧
      s.input = [] ∧ s'.input = [] ∧
      chooseK s.matrix.instruction.length = chooseK s'.matrix.instruction.length ∧
      ∀ ch ch', ∃ a a',
        synthesize (2 ^ chooseK s.matrix.instruction.length) s.matrix ch
          (publicInputs code (toFr input)) = .ok a ∧
        synthesize (2 ^ chooseK s'.matrix.instruction.length) s'.matrix ch'
          (publicInputs code (toFr input')) = .ok a' ∧
        ¬ SameCircuit (2 ^ chooseK s.matrix.instruction.length) a a' := by
  have h : ((runOn 100 8 clearCode [1]).map (fun r => r.map (fun s =>
      (s.matrix.processor.length, s.input)))) = some (.ok (5, [])) := by decide +kernel
  have h' : ((runOn 100 8 clearCode [2]).map (fun r => r.map (fun s =>
      (s.matrix.processor.length, s.input)))) = some (.ok (7, [])) := by decide +kernel
  obtain ⟨s, hs, e⟩ := ok_of_map h
  obtain ⟨s', hs', e'⟩ := ok_of_map h'
  have hg1 : GoodInput 8 [1] := by unfold GoodInput; decide
  have hg2 : GoodInput 8 [2] := by unfold GoodInput; decide
  have hp1 : s.matrix.processor.length = 5 := congrArg Prod.fst e
  have hin : s.input = [] := congrArg Prod.snd e
  have hp1' : s'.matrix.processor.length = 7 := congrArg Prod.fst e'
  have hin' : s'.input = [] := congrArg Prod.snd e'
  have l3 : s.matrix.instruction.length = 11 := by
    rw [(honest_lengths clear_good hg1 (by norm_num) hs).1, hp1]; rfl
  have l3' : s'.matrix.instruction.length = 13 := by
    rw [(honest_lengths clear_good hg2 (by norm_num) hs').1, hp1']; rfl
  have hk : chooseK s.matrix.instruction.length = 9 := by rw [l3]; decide +kernel
  have hk' : chooseK s'.matrix.instruction.length = 9 := by rw [l3']; decide +kernel
  refine ⟨_, clearCode, [1], [2], 100, s, s', clear_good, hg1, hg2, by norm_num, hs, hs', hin, hin',
    by rw [hk, hk'], ?_⟩
  intro ch ch'
  obtain ⟨a, ha⟩ := (C16_choice_partial true _ clearCode [1] 100 s ch clear_good hg1
    (by norm_num) hs hin).2 (by rw [hk, l3]; norm_num)
  obtain ⟨a', ha'⟩ := (C16_choice_partial true _ clearCode [2] 100 s' ch' clear_good hg2
    (by norm_num) hs' hin').2 (by rw [hk', l3']; norm_num)
  refine ⟨a, a', ha, ha', ?_⟩
  intro hsame
  rw [hk] at ha hsame
  rw [hk'] at ha'
  have := ((C30_program_iff_partial true _ clearCode [1] [2] 100 100 _ s s' ch ch' a a' clear_good
    hg1 hg2 (by norm_num) (by norm_num) hs hs' ha ha').1 hsame).1
  omega

/-- The hypotheses of the partial theorems are met, with the same shape: `,.` on two inputs. -/
example : ∃ (s s' : Interp) (a a' : Assembly),
    runOn 10 8 (toFr [44, 46]) [1] = some (.ok s) ∧ runOn 10 8 (toFr [44, 46]) [2] = some (.ok s') ∧
    synthesize 512 s.matrix (fun _ => 1) (publicInputs (toFr [44, 46]) (toFr [1])) = .ok a ∧
    synthesize 512 s'.matrix (fun _ => 2) (publicInputs (toFr [44, 46]) (toFr [2])) = .ok a' ∧
    SameCircuit 512 a a' := by
  have h : ∀ v ∈ [1, 2], ((runOn 10 8 (toFr [44, 46]) [v]).map (fun r => r.map (fun s =>
      (s.matrix.processor.length, s.matrix.output.length, s.matrix.input.length, s.input)))) =
      some (.ok (3, 1, 1, [])) := by decide +kernel
  obtain ⟨s, hs, e⟩ := ok_of_map (h 1 (by simp))
  obtain ⟨s', hs', e'⟩ := ok_of_map (h 2 (by simp))
  simp only [Prod.mk.injEq] at e e'
  have hgood : GoodProgram true [44, 46] (toFr [44, 46]) :=
    ⟨by decide, by decide, by decide, by decide⟩
  have hg1 : GoodInput 8 [1] := by unfold GoodInput; decide
  have hg2 : GoodInput 8 [2] := by unfold GoodInput; decide
  have l3 : s.matrix.instruction.length = 5 := by
    rw [(honest_lengths hgood hg1 (by norm_num) hs).1, e.1]; rfl
  have l3' : s'.matrix.instruction.length = 5 := by
    rw [(honest_lengths hgood hg2 (by norm_num) hs').1, e'.1]; rfl
  obtain ⟨a, ha⟩ := (honest_room hgood hg1 (by norm_num) hs 512 (fun _ => 1)).2
    ⟨by norm_num, by rw [l3]; norm_num, by norm_num⟩
  obtain ⟨a', ha'⟩ := (honest_room hgood hg2 (by norm_num) hs' 512 (fun _ => 2)).2
    ⟨by norm_num, by rw [l3']; norm_num, by norm_num⟩
  refine ⟨s, s', a, a', hs, hs', ha, ha', ?_⟩
  exact (C30_program_iff_partial true _ _ [1] [2] 10 10 512 s s' _ _ a a' hgood hg1 hg2
    (by norm_num) (by norm_num) hs hs' ha ha').2 ⟨by omega, by omega, by omega⟩

end Verif.Props

#print axioms Verif.Props.C30_shape_iff_lengths_partial
#print axioms Verif.Props.C30_program_iff_partial
#print axioms Verif.Props.C30_false
