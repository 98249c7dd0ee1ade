import Verif.Lemmas.HonestRepaired
import Verif.Props.Soundness

/-! Properties C19–C23, the parts that hold: with the constraints of `Spec.Repaired` added, accepted
assignments are genuine executions, except for a few values of the challenges. -/

namespace Verif.Props

open BF Spec

set_option synthInstance.maxSize 1000

theorem rare_weaken {n : Nat} {mx : Matrix} {code input : List Fr} {adv : Nat → Nat → Fr}
    {bad bad' : Grid → Prop} (h : Rare n (Convincing n mx code input adv bad))
    (hb : ∀ g, bad' g → bad g) : Rare n (Convincing n mx code input adv bad') := by
  refine Rare.mono h ?_ (le_refl _)
  rintro x ⟨g, h1, h2, h3, h4⟩
  exact ⟨g, h1, h2, h3, hb g h4⟩

/-- C21, what nonzero equal starts give: the memory table lists the memory accesses of the processor
table. The starts are not enforced by the circuit (`C21_false`). -/
theorem C21_memory_partial (n : Nat) (mx : Matrix) (code input : List Fr) (adv : Nat → Nat → Fr) :
    Rare n (Convincing n mx code input adv (fun g => MemStarts g ∧
      ¬ (memoryRows mx g).Perm (accessRows mx g))) := by
  by_cases h : (triples (plain adv) 11 12 13 mx.memory.length).Perm
      (triples (plain adv) 0 4 5 mx.processor.length)
  · refine rare_empty ?_
    rintro x ⟨g, -, -, hfp, -, hn⟩
    apply hn
    have e1 : memoryRows mx g = triples g 11 12 13 mx.memory.length := rfl
    have e2 : accessRows mx g = triples g 0 4 5 mx.processor.length := rfl
    rw [e1, e2, first_triples hfp (by simp) (by simp) (by simp),
      first_triples hfp (by simp) (by simp) (by simp)]
    exact h
  · exact rare_weaken (rare_mem h) fun g hg => hg.1

/-- The same for the instruction products: the instruction table, less one row for every position it
moves on from, lists the fetches of the processor table. -/
theorem C21_instruction_partial (n : Nat) (mx : Matrix) (code input : List Fr)
    (adv : Nat → Nat → Fr) (hI : 0 < mx.instruction.length) :
    Rare n (Convincing n mx code input adv (fun g => InsStarts g ∧
      ¬ (repeatedRows mx g).Perm (fetchRows mx g))) := by
  by_cases h : (stayTriples (plain adv) mx.instruction.length).Perm
      (triples (plain adv) 2 1 3 mx.processor.length)
  · refine rare_empty ?_
    rintro x ⟨g, -, -, hfp, -, hn⟩
    apply hn
    have e1 : repeatedRows mx g = stayTriples g mx.instruction.length := rfl
    have e2 : fetchRows mx g = triples g 2 1 3 mx.processor.length := rfl
    rw [e1, e2, first_stays hfp, first_triples hfp (by simp) (by simp) (by simp)]
    exact h
  · exact rare_weaken (rare_ins hI h) fun g hg => hg.1

/-- C20, what holds of the instruction table: if the instruction products start from equal nonzero
values, the sums over the program words start from 0 and are tied to the program at the end, and the
table goes from the first word to the position after the last, every row of the processor table
fetches from the public program. None of this is enforced by the circuit (`C20_false`). -/
theorem C20_fetch_partial (n : Nat) (mx : Matrix) (code input : List Fr) (adv : Nat → Nat → Fr)
    (hn : n < P) (hI : 0 < mx.instruction.length) (hc : mx.program.length = code.length) :
    Rare n (Convincing n mx code input adv (fun g => InsStarts g ∧ ProgramSums mx g ∧
      InsOrder mx code.length g ∧
      ¬ ∀ i, i < mx.processor.length → FetchesFrom code (row g i))) := by
  by_cases h1 : (stayTriples (plain adv) mx.instruction.length).Perm
      (triples (plain adv) 2 1 3 mx.processor.length)
  · by_cases h2 : SameUpToLeadingZeros
        (changes (adv 15) (adv 16) (mx.instruction.length - 1)) code
    · refine rare_empty ?_
      rintro x ⟨g, hg, -, hfp, -, -, ho, hf⟩
      apply hf
      have F := accepts_facts hg
      have hroom := F.roomG
      have := fetch_all F hn hI ho (by omega)
        (by rw [first_stays hfp, first_triples hfp (by simp) (by simp) (by simp)]; exact h1)
        (by rw [first_col hfp (c := 15) (by simp), first_col hfp (c := 16) (by simp)]; exact h2)
      intro i hi
      obtain ⟨f1, f2, f3⟩ := this i hi
      exact ⟨_, f1, (Fr.cast_val _).symm, f2, f3⟩
    · exact rare_weaken (rare_prog hc h2) fun g hg => hg.2.1
  · exact rare_weaken (rare_ins hI h1) fun g hg => hg.1

/-- The common part of C19, C22 and C23: outside few challenges all rows show states of the textbook
machine. -/
theorem rare_run {checks : Bool} {src : List UInt8} {code : List Fr} {input : List Nat} {n : Nat}
    {mx : Matrix} {adv : Nat → Nat → Fr} {extra : Grid → Prop} (hp : GoodProgram checks src code)
    (hi : GoodInput 8 input) (hn : n < P) (hI : 0 < mx.instruction.length)
    (hc : mx.program.length = code.length) (hl : mx.input.length = input.length)
    (hextra : AtOpcodes mx (row (plain adv)) →
      Rare n (Convincing n mx code (toFr input) adv (fun g => Repaired mx code.length g ∧
        (∀ i, i < mx.processor.length → ∃ t, Steps (commands src) 8 i (BF.init input) t ∧
          Shows (commands src) input (row g) i t) ∧ extra g))) :
    Rare n (Convincing n mx code (toFr input) adv (fun g => Repaired mx code.length g ∧ extra g)) := by
  obtain ⟨ws, hws, hcomp, hok⟩ := hp.words
  have hcast : code = toFr ws := hws
  clear hws
  subst hcast
  simp only [toFr_length] at *
  by_cases h1 : (triples (plain adv) 11 12 13 mx.memory.length).Perm
      (triples (plain adv) 0 4 5 mx.processor.length)
  swap
  · exact rare_weaken (rare_mem h1) fun g hg => hg.1.memStarts
  by_cases h2 : (stayTriples (plain adv) mx.instruction.length).Perm
      (triples (plain adv) 2 1 3 mx.processor.length)
  swap
  · exact rare_weaken (rare_ins hI h2) fun g hg => hg.1.insStarts
  by_cases h3 : SameUpToLeadingZeros
      (changes (adv 15) (adv 16) (mx.instruction.length - 1)) (toFr ws)
  swap
  · exact rare_weaken (rare_prog (by rw [toFr_length]; exact hc) h3) fun g hg => hg.1.programSums
  -- from here on the rows of any accepted assignment are at opcodes
  have hfetch : ∀ g, Accepts n mx (publicInputs (toFr ws) (toFr input)) g →
      (∀ c r, FirstPhase c → g.advice c r = adv c r) → Repaired mx ws.length g →
      ws.length < P ∧ ∀ i, i < mx.processor.length → (row g i).ip.val ≤ ws.length ∧
        (∀ v, (toFr ws)[(row g i).ip.val]? = some v → (row g i).ci = v) ∧
        (∀ v, (toFr ws)[(row g i).ip.val + 1]? = some v → (row g i).ni = v) := by
    intro g hg hfp hrep
    have F := accepts_facts hg
    have hroom := F.roomG
    have hlt : ws.length < P := by omega
    refine ⟨hlt, ?_⟩
    have := fetch_all F hn hI (by rw [toFr_length]; exact hrep.insOrder) (by rw [toFr_length]; exact hlt)
      (by rw [first_stays hfp, first_triples hfp (by simp) (by simp) (by simp)]; exact h2)
      (by rw [first_col hfp (c := 15) (by simp), first_col hfp (c := 16) (by simp)]; exact h3)
    rw [toFr_length] at this
    exact this
  by_cases h4 : AtOpcodes mx (row (plain adv))
  swap
  · refine rare_empty ?_
    rintro x ⟨g, g1, g2, g3, g4, -⟩
    apply h4
    obtain ⟨hlt, hf⟩ := hfetch g g1 g3 g4
    have := on_commands (accepts_facts g1) hp.balanced hcomp hlt g4.running
      (fun i hi => (hf i hi).2)
    rw [← first_rows g3]
    intro i hi'
    obtain ⟨pc, q1, q2, q3, q4⟩ := this i (by omega)
    have hpc := q4 hi'
    exact ⟨_, opOf_mem _, q3 _ (List.getElem?_eq_getElem hpc)⟩
  by_cases h5 : SameUpToLeadingZeros (readsOf (row (plain adv)) (mx.processor.length - 1)) (toFr input)
  swap
  · exact rare_weaken (rare_in h4 (by rw [toFr_length]; exact hl) h5) fun g hg => hg.1.inputSums
  refine Rare.mono (hextra h4) ?_ (le_refl _)
  rintro x ⟨g, g1, g2, g3, g4, g5⟩
  refine ⟨g, g1, g2, g3, g4, ?_, g5⟩
  have F := accepts_facts g1
  obtain ⟨hlt, hf⟩ := hfetch g g1 g3 g4
  have hP := F.roomP
  have hM := F.roomM
  refine rows_genuine hp.balanced hcomp hlt (show mx.memory.length < P by omega) (by omega) hi ?_
  refine rows_ok F hn g4.memOrder g4.running hf
    (by rw [first_triples g3 (by simp) (by simp) (by simp),
          first_triples g3 (by simp) (by simp) (by simp)]; exact h1) ?_
  have hlen := reads_length g4.reads
  rw [first_rows g3] at hlen
  have := same_eq h5 (by rw [hlen, toFr_length]; exact hl)
  rw [first_rows g3, this]

/-- C19 with the missing constraints. Whatever first-phase columns a prover commits to: the
challenges for which it can complete them to an accepted assignment that satisfies the missing
constraints but is not an execution of the public program on the public input are at most `n` in `P`
(about `2^-230` for the largest circuits). Holds for every circuit shape with the right numbers of
program and input rows. -/
theorem C19_sound_partial (checks : Bool) (src : List UInt8) (code : List Fr) (input : List Nat)
    (n : Nat) (mx : Matrix) (adv : Nat → Nat → Fr) (hp : GoodProgram checks src code)
    (hi : GoodInput 8 input) (hn : n < P) (hI : 0 < mx.instruction.length)
    (hc : mx.program.length = code.length) (hl : mx.input.length = input.length) :
    Rare n (Convincing n mx code (toFr input) adv (fun g => Repaired mx code.length g ∧
      ¬ Genuine (commands src) input mx.processor.length g)) := by
  refine rare_run hp hi hn hI hc hl (fun _ => rare_empty ?_)
  rintro x ⟨g, -, -, -, -, h1, h2⟩
  apply h2
  intro i hi'
  obtain ⟨t, s1, s2⟩ := h1 i hi'
  exact ⟨t, s1, s2.clk, s2.ip, s2.mp, s2.mv⟩

/-- C19 with the missing constraints: no forgery works for all challenges. -/
theorem C19_unforgeable_partial (checks : Bool) (src : List UInt8) (code : List Fr)
    (input : List Nat) (n : Nat) (mx : Matrix) (hp : GoodProgram checks src code)
    (hi : GoodInput 8 input) (hn : n < P) (hI : 0 < mx.instruction.length)
    (hc : mx.program.length = code.length) (hl : mx.input.length = input.length) :
    ¬ Forgeable n mx code (toFr input) (fun g => Repaired mx code.length g ∧
      ¬ Genuine (commands src) input mx.processor.length g) :=
  not_forgeable hn fun adv => C19_sound_partial checks src code input n mx adv hp hi hn hI hc hl

/-- C22 with the missing constraints, among them that the last row has no instruction: the program
halts after as many steps as the processor table has rows, less one. -/
theorem C22_halts_partial (checks : Bool) (src : List UInt8) (code : List Fr) (input : List Nat)
    (n : Nat) (mx : Matrix) (adv : Nat → Nat → Fr) (hp : GoodProgram checks src code)
    (hi : GoodInput 8 input) (hn : n < P) (hI : 0 < mx.instruction.length)
    (hc : mx.program.length = code.length) (hl : mx.input.length = input.length)
    (hP : 0 < mx.processor.length) :
    Rare n (Convincing n mx code (toFr input) adv (fun g => Repaired mx code.length g ∧
      (row g (mx.processor.length - 1)).ci = 0 ∧
      ¬ ((row g (mx.processor.length - 1)).ip = (code.length : Fr) ∧
        ∃ t, Finishes (commands src) 8 input (mx.processor.length - 1) t))) := by
  by_cases hfetch : ∀ g, Accepts n mx (publicInputs code (toFr input)) g →
      (∀ c r, FirstPhase c → g.advice c r = adv c r) → Repaired mx code.length g →
      ∀ i, i < mx.processor.length → FetchesFrom code (row g i)
  · refine rare_run hp hi hn hI hc hl (fun _ => rare_empty ?_)
    rintro x ⟨g, g1, -, g3, g4, h1, h2, h3⟩
    obtain ⟨t, s1, s2⟩ := h1 (mx.processor.length - 1) (by omega)
    obtain ⟨k, k1, k2, k3, -⟩ := hfetch g g1 g3 g4 (mx.processor.length - 1) (by omega)
    obtain ⟨ws, hws, hcomp, hok⟩ := hp.words
    have hcast : code = toFr ws := hws
    clear hws
    subst hcast
    simp only [toFr_length] at *
    have hroom := (accepts_facts g1).roomG
    have hk : k = pos (commands src) t.pc := by
      have e := s2.ip
      rw [k2] at e
      have := pos_mono (commands src) s2.pc
      rw [← hcomp.length] at this
      exact (Fr.cast_inj (by omega) (by omega)).1 e
    have hpc : t.pc = (commands src).length := by
      by_contra hne
      have hlt : t.pc < (commands src).length := by have := s2.pc; omega
      have hcm := List.getElem?_eq_getElem hlt
      have := k3 _ (by rw [hk]; exact cast_get (hcomp.opcode _ _ hcm))
      rw [h2] at this
      revert this
      generalize (commands src)[t.pc] = c
      cases c <;> decide +kernel
    apply h3
    refine ⟨?_, t, s1, ?_⟩
    · rw [k2, hk, hpc, hcomp.length]
    · unfold Halted; omega
  · have hsub := C20_fetch_partial n mx code (toFr input) adv hn hI hc
    push Not at hfetch
    obtain ⟨g0, a1, a2, a3, i, a4, a5⟩ := hfetch
    refine Rare.mono hsub ?_ (le_refl _)
    rintro x ⟨g, g1, g2, g3, g4, -⟩
    refine ⟨g, g1, g2, g3, g4.insStarts, g4.programSums, g4.insOrder, fun hall => a5 ?_⟩
    rw [first_row a2 i, ← first_row g3 i]
    exact hall i a4

/-- C23 with the missing constraints, among them those for the output: the output table is the output
of the public program on the public input, after as many steps as the processor table has rows, less
one. -/
theorem C23_output_partial (checks : Bool) (src : List UInt8) (code : List Fr) (input : List Nat)
    (n : Nat) (mx : Matrix) (adv : Nat → Nat → Fr) (hp : GoodProgram checks src code)
    (hi : GoodInput 8 input) (hn : n < P) (hI : 0 < mx.instruction.length)
    (hc : mx.program.length = code.length) (hl : mx.input.length = input.length)
    (hP : 0 < mx.processor.length) :
    Rare n (Convincing n mx code (toFr input) adv (fun g => Repaired mx code.length g ∧
      OutputSums mx g ∧ commandCount mx g .put = mx.output.length ∧
      ¬ ∃ t, Steps (commands src) 8 (mx.processor.length - 1) (BF.init input) t ∧
        outputOf g mx.output.length = toFr t.output)) := by
  refine rare_run hp hi hn hI hc hl (fun hop => ?_)
  by_cases hout : SameUpToLeadingZeros (writesOf (row (plain adv)) (mx.processor.length - 1))
      (column (plain adv) 20 mx.output.length)
  · refine rare_empty ?_
    rintro x ⟨g, g1, -, g3, g4, h1, h2, h3, h4⟩
    apply h4
    obtain ⟨t, s1, s2⟩ := h1 (mx.processor.length - 1) (by omega)
    refine ⟨t, s1, ?_⟩
    have e := s2.out
    have hlen := writes_length h3
    rw [first_rows g3] at hlen e
    have e2 := same_eq hout (by rw [hlen, column_length])
    have e3 : outputOf g mx.output.length = column g 20 mx.output.length := rfl
    rw [e3, first_column g3 (by simp), ← e2, e]
    rfl
  · exact rare_weaken (rare_out hop hout) fun g hg => hg.2.2.1

/-- C23, as stated: with the missing constraints two forgers with different outputs cannot both
succeed for all challenges. -/
theorem C23_unique_partial (checks : Bool) (src : List UInt8) (code : List Fr) (input : List Nat)
    (n : Nat) (mx : Matrix) (hp : GoodProgram checks src code)
    (hi : GoodInput 8 input) (hn : n < P) (hI : 0 < mx.instruction.length)
    (hc : mx.program.length = code.length) (hl : mx.input.length = input.length)
    (hP : 0 < mx.processor.length) (out out' : List Fr)
    (h : Forgeable n mx code (toFr input) (fun g => Repaired mx code.length g ∧
      OutputSums mx g ∧ commandCount mx g .put = mx.output.length ∧
      outputOf g mx.output.length = out))
    (h' : Forgeable n mx code (toFr input) (fun g => Repaired mx code.length g ∧
      OutputSums mx g ∧ commandCount mx g .put = mx.output.length ∧
      outputOf g mx.output.length = out')) : out = out' := by
  have key : ∀ o, Forgeable n mx code (toFr input) (fun g => Repaired mx code.length g ∧
      OutputSums mx g ∧ commandCount mx g .put = mx.output.length ∧
      outputOf g mx.output.length = o) →
      ∃ t, Steps (commands src) 8 (mx.processor.length - 1) (BF.init input) t ∧ o = toFr t.output := by
    intro o ho
    by_contra hne
    refine not_forgeable hn (fun adv => C23_output_partial checks src code input n mx adv hp hi hn hI
      hc hl hP) ?_
    obtain ⟨adv, hadv⟩ := ho
    refine ⟨adv, fun ch => ?_⟩
    obtain ⟨g, g1, g2, g3, g4, g5, g6, g7⟩ := hadv ch
    refine ⟨g, g1, g2, g3, g4, g5, g6, ?_⟩
    rintro ⟨t, t1, t2⟩
    exact hne ⟨t, t1, by rw [← g7, t2]⟩
  obtain ⟨t, t1, t2⟩ := key out h
  obtain ⟨t', t1', t2'⟩ := key out' h'
  have := t1.split t1' (le_refl _)
  rw [Nat.sub_self] at this
  rw [t2, t2', this.zero_eq]

/-- The missing constraints do no harm: whatever the challenges, everything the prover's synthesis
produces for a finished run that reads its whole input is accepted and satisfies them, those for the
output and that of C22 included. -/
theorem C19_repair_keeps_honest_partial (checks : Bool) (src : List UInt8) (code : List Fr)
    (input : List Nat) (n rows : Nat) (s : Interp) (h : HonestRun checks src code input n s)
    (hf : Fits rows s) (hlen : input.length < 2 ^ 64) (ch : Nat → Fr) :
    ∃ a, synthesize rows s.matrix ch (publicInputs code (toFr input)) = .ok a ∧
      (∃ g, Completes rows a ch (publicInputs code (toFr input)) g) ∧
      ∀ g, Completes rows a ch (publicInputs code (toFr input)) g →
        Accepts rows s.matrix (publicInputs code (toFr input)) g ∧
        Genuine (commands src) input s.matrix.processor.length g ∧
        Repaired s.matrix code.length g ∧ OutputSums s.matrix g ∧
        commandCount s.matrix g .put = s.matrix.output.length ∧
        (row g (s.matrix.processor.length - 1)).ci = 0 := by
  obtain ⟨a, ha⟩ := h.synth hf ch
  refine ⟨a, ha, completion rows a ch _, fun g hg => ?_⟩
  obtain ⟨as, vin, vcode, hfill⟩ := filled ha hg
  have hch : g.challenge = ch := funext hg.challenge
  refine ⟨⟨a, by rw [hch]; exact ha, hg.fixed, hg.selector, hg.instance_, ?_⟩,
    genuine_of_listed h.good h.bytes h.steps h.run hfill.proc,
    honest_repaired h.good h.bytes h.steps h.run hfill⟩
  exact (C15_accepts_iff_input_read_partial checks src code input n s rows ch a g h.good h.bytes
    h.steps hlen h.run ha hg).2 h.read

/-- The hypotheses of the theorems above are met: program `,.` on input 7. -/
example : ∃ (s : Interp) (rows : Nat), HonestRun true [44, 46] (toFr [44, 46]) [7] 10 s ∧
    Fits rows s ∧ rows < P ∧ GoodProgram true [44, 46] (toFr [44, 46]) ∧ GoodInput 8 [7] ∧
    0 < s.matrix.instruction.length ∧ s.matrix.program.length = (toFr [44, 46]).length ∧
    s.matrix.input.length = ([7] : List Nat).length ∧ 0 < s.matrix.processor.length ∧
    s.matrix.output = [7] ∧
    ∀ ch : Nat → Fr, ∃ g, Accepts rows s.matrix (publicInputs (toFr [44, 46]) (toFr [7])) g ∧
      g.challenge = ch ∧ Repaired s.matrix (toFr [44, 46]).length g ∧
      OutputSums s.matrix g ∧ commandCount s.matrix g .put = s.matrix.output.length ∧
      (row g (s.matrix.processor.length - 1)).ci = 0 := by
  obtain ⟨s, h, e⟩ := honest_of_map (checks := true) (src := [44, 46]) (code := toFr [44, 46])
    (input := [7]) (n := 10) (f := sizes) (x := (3, 1, 1, [7], [0, 7, 7]))
    ⟨by decide, by decide, by decide, by decide⟩ (by unfold GoodInput; decide) (by norm_num)
    (by decide +kernel)
  simp only [sizes, Prod.mk.injEq] at e
  obtain ⟨p1, o1, i1, v0, v1⟩ := e
  obtain ⟨a1, a2, -, -, -, a6⟩ := honest_lengths h.good h.bytes h.steps h.run
  have hfit : Fits 512 s := ⟨by norm_num, by rw [a1, p1]; decide⟩
  refine ⟨s, 512, h, hfit, lt_P_of_lt (k := 64) (by norm_num) (by norm_num), h.good, h.bytes,
    by rw [a1, p1]; omega, a6, i1, by rw [p1]; omega, v0, fun ch => ?_⟩
  obtain ⟨a, ha, ⟨g, hg⟩, hall⟩ := C19_repair_keeps_honest_partial true _ _ _ _ 512 s h hfit
    (by norm_num) ch
  obtain ⟨q1, q2, q3⟩ := hall g hg
  exact ⟨g, q1, funext hg.challenge, q3⟩

#print axioms C19_repair_keeps_honest_partial
#print axioms C19_sound_partial
#print axioms C19_unforgeable_partial
#print axioms C20_fetch_partial
#print axioms C21_memory_partial
#print axioms C21_instruction_partial
#print axioms C22_halts_partial
#print axioms C23_output_partial
#print axioms C23_unique_partial

end Verif.Props
