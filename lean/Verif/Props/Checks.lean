import Verif.Lemmas.NeededChecks
import Verif.Spec.Checks
import Verif.Props.Repaired

/-! Property C80: the checks the circuit lacks; they are enough, each is needed, and an honest prover passes them. -/

namespace Verif.Props

open BF Spec

set_option synthInstance.maxSize 1000

/-- C80, first part: the twenty checks are enough. Whatever first-phase columns a prover commits to,
the challenges for which it can complete them to an accepted assignment that passes the twenty
checks but is not a complete run of the public program on the public input with the shown output are
at most `n` in `P`. -/
theorem C80_enough (checks : Bool) (src : List UInt8) (code : List Fr) (input : List Nat)
    (n : Nat) (mx : Matrix) (adv : Nat → Nat → Fr) (hp : GoodProgram checks src code)
    (hi : GoodInput 8 input) (hn : n < P) (hI : 0 < mx.instruction.length)
    (hc : mx.program.length = code.length) (hl : mx.input.length = input.length) :
    Rare n (Convincing n mx code (toFr input) adv (fun g =>
      (∀ c : Check, c.Holds mx code.length g) ∧ ¬ Faithful (commands src) input mx g)) := by
  obtain ⟨ws, hws, hcomp, hok⟩ := hp.words
  have hcast : code = toFr ws := hws
  clear hws
  subst hcast
  simp only [toFr_length] at *
  by_cases h1 : (triples (plain adv) 11 12 13 mx.memory.length).Perm
      (triples (plain adv) 0 4 5 mx.processor.length)
  swap
  · exact rare_weaken (rare_mem h1) fun g hg => ⟨hg.1 .memSameStart, hg.1 .memNonzeroStart⟩
  by_cases h2 : (stayTriples (plain adv) mx.instruction.length).Perm
      (triples (plain adv) 2 1 3 mx.processor.length)
  swap
  · exact rare_weaken (rare_ins hI h2) fun g hg => ⟨hg.1 .insSameStart, hg.1 .insNonzeroStart⟩
  by_cases h3 : SameUpToLeadingZeros
      (changes (adv 15) (adv 16) (mx.instruction.length - 1)) (toFr ws)
  swap
  · exact rare_weaken (rare_prog (by rw [toFr_length]; exact hc) h3) fun g hg =>
      ⟨hg.1 .insSumZero, hg.1 .programSumZero, hg.1 .insSumStop⟩
  have hcmd : ∀ g, Accepts n mx (publicInputs (toFr ws) (toFr input)) g →
      (∀ c r, FirstPhase c → g.advice c r = adv c r) →
      (∀ c : Check, c.Holds mx ws.length g) →
      ws.length < P ∧
      (∀ i, i < mx.processor.length →
        (∀ v, (toFr ws)[(row g i).ip.val]? = some v → (row g i).ci = v) ∧
        (∀ v, (toFr ws)[(row g i).ip.val + 1]? = some v → (row g i).ni = v)) ∧
      ∀ i, i < mx.processor.length → ∃ pc, pc ≤ (commands src).length ∧
        (row g i).ip = (pos (commands src) pc : Fr) ∧
        (∀ c, (commands src)[pc]? = some c → (row g i).ci = frOfByte (opOf c)) ∧
        (i + 1 < mx.processor.length → pc < (commands src).length) := by
    intro g hg hfp hall
    have F := accepts_facts hg
    have hroom := F.roomG
    have hlt : ws.length < P := by omega
    have hf := fetch_inside F hn hI (by rw [toFr_length]; exact hc)
      (by rw [toFr_length]; exact hall .insLast) (hall .insNext)
      (by rw [first_stays hfp, first_triples hfp (by simp) (by simp) (by simp)]; exact h2)
      (by rw [first_col hfp (c := 15) (by simp), first_col hfp (c := 16) (by simp)]; exact h3)
    exact ⟨hlt, hf, on_commands F hp.balanced hcomp hlt (hall .running) hf⟩
  by_cases h4 : AtOpcodes mx (row (plain adv))
  swap
  · refine rare_empty ?_
    rintro x ⟨g, g1, g2, g3, g4, -⟩
    apply h4
    obtain ⟨hlt, hf, this⟩ := hcmd g g1 g3 g4
    rw [← first_rows g3]
    intro i hi'
    obtain ⟨pc, q1, q2, q3, q4⟩ := this i (by omega)
    have hpc := q4 hi'
    exact ⟨_, opOf_mem _, q3 _ (List.getElem?_eq_getElem hpc)⟩
  by_cases h5 : SameUpToLeadingZeros (readsOf (row (plain adv)) (mx.processor.length - 1)) (toFr input)
  swap
  · exact rare_weaken (rare_in h4 (by rw [toFr_length]; exact hl) h5) fun g hg =>
      ⟨hg.1 .procInputZero, hg.1 .inputZero, hg.1 .inputStop⟩
  by_cases h6 : SameUpToLeadingZeros (writesOf (row (plain adv)) (mx.processor.length - 1))
      (column (plain adv) 20 mx.output.length)
  swap
  · exact rare_weaken (rare_out h4 h6) fun g hg =>
      ⟨hg.1 .procOutputZero, hg.1 .outputZero, hg.1 .outputStop⟩
  refine rare_empty ?_
  rintro x ⟨g, g1, g2, g3, g4, g5⟩
  apply g5
  have F := accepts_facts g1
  obtain ⟨hlt, hf, hpc⟩ := hcmd g g1 g3 g4
  have hP := F.roomP
  have hM := F.roomM
  have hperm2 : (stayTriples g mx.instruction.length).Perm (triples g 2 1 3 mx.processor.length) := by
    rw [first_stays g3, first_triples g3 (by simp) (by simp) (by simp)]; exact h2
  have hread : readsOf (row g) (mx.processor.length - 1) = toFr input := by
    have hlen := reads_length (g4 .reads)
    rw [first_rows g3] at hlen ⊢
    exact same_eq h5 (by rw [hlen, toFr_length]; exact hl)
  have hrows := rows_genuine (input := input) hp.balanced hcomp hlt
    (show mx.memory.length < P by omega) (by omega) hi
    (rows_ok F hn ⟨g4 .memFirst, g4 .memOrder⟩ (g4 .running)
      (by
        intro i hi'
        obtain ⟨pc, q1, q2, -⟩ := hpc i hi'
        have := pos_mono (commands src) q1
        rw [← hcomp.length] at this
        refine ⟨?_, hf i hi'⟩
        rw [q2, Fr.val_cast (by omega)]
        exact this)
      (by rw [first_triples g3 (by simp) (by simp) (by simp),
            first_triples g3 (by simp) (by simp) (by simp)]; exact h1)
      (by rw [hread]))
  obtain ⟨j, hj, ej⟩ := last_fetched F hperm2
  have elast : g.advice 15 (mx.instruction.length - 1) = (ws.length : Fr) := g4 .insLast
  rw [elast] at ej
  have hjlast : j = mx.processor.length - 1 := by
    by_contra hne
    exact g4 .running j (by omega) ej
  obtain ⟨t, s1, s2⟩ := hrows (mx.processor.length - 1) (by omega)
  refine ⟨?_, t, ⟨s1, ?_⟩, ?_, ?_⟩
  · intro i hi'
    obtain ⟨t, s1, s2⟩ := hrows i hi'
    exact ⟨t, s1, s2.clk, s2.ip, s2.mp, s2.mv⟩
  · have e := s2.ip
    rw [← hjlast, ej] at e
    have hm := pos_mono (commands src) s2.pc
    rw [← hcomp.length] at hm
    have e2 := (Fr.cast_inj hlt (by omega)).1 e
    unfold Halted
    by_contra hlt'
    have hcm := List.getElem?_eq_getElem (show t.pc < (commands src).length by omega)
    have := pos_succ hcm
    have h3 := pos_mono (commands src) (show t.pc + 1 ≤ (commands src).length by omega)
    rw [← hcomp.length] at h3
    have hw : 0 < width (commands src)[t.pc] := by
      generalize (commands src)[t.pc] = c
      cases c <;> decide
    omega
  · have e := s2.inp
    rw [hread] at e
    have e3 := congrArg List.length e
    simp only [toFr, List.length_append, List.length_map] at e3
    exact List.length_eq_zero_iff.1 (by omega)
  · have e := s2.out
    have hlen := writes_length (g4 .writes)
    rw [first_rows g3] at hlen e
    have e2 := same_eq h6 (by rw [hlen, column_length])
    have e3 : outputOf g mx.output.length = column g 20 mx.output.length := rfl
    rw [e3, first_column g3 (by simp), ← e2, e]

/-- C80, second part: none of the twenty checks can be left out. For each there is a program, an
input and first-phase columns that, for all challenges but at most `n` in `P`, can be completed to
an accepted assignment that passes the other nineteen and shows an output the program does not print
on the input. -/
theorem C80_each_needed : ∀ c : Check, Needed c (GoodProgram true)
  | .memSameStart => needed_memSameStart
  | .memNonzeroStart => needed_memNonzeroStart
  | .insSameStart => needed_insSameStart
  | .insNonzeroStart => needed_insNonzeroStart
  | .insSumZero => needed_insSumZero
  | .programSumZero => needed_programSumZero
  | .insSumStop => needed_insSumStop
  | .procInputZero => needed_procInputZero
  | .inputZero => needed_inputZero
  | .inputStop => needed_inputStop
  | .procOutputZero => needed_procOutputZero
  | .outputZero => needed_outputZero
  | .outputStop => needed_outputStop
  | .memFirst => needed_memFirst
  | .memOrder => needed_memOrder
  | .insLast => needed_insLast
  | .insNext => needed_insNext
  | .running => needed_running
  | .reads => needed_reads
  | .writes => needed_writes

/-- C80, third part: the checks do no harm. Whatever the challenges, everything the prover's
synthesis produces for a finished run that reads its whole input is accepted and passes the twenty
checks. -/
theorem C80_honest (checks : Bool) (src : List UInt8) (code : List Fr) (input : List Nat)
    (n rows : Nat) (s : Interp) (h : HonestRun checks src code input n s) (hf : Fits rows s)
    (hlen : input.length < 2 ^ 64) (ch : Nat → Fr) :
    ∃ a, synthesize rows s.matrix ch (publicInputs code (toFr input)) = .ok a ∧
      (∃ g, Completes rows a ch (publicInputs code (toFr input)) g) ∧
      ∀ g, Completes rows a ch (publicInputs code (toFr input)) g →
        Accepts rows s.matrix (publicInputs code (toFr input)) g ∧
        ∀ c : Check, c.Holds s.matrix code.length g := by
  obtain ⟨a, h1, h2, h3⟩ := C19_repair_keeps_honest_partial checks src code input n rows s h hf hlen ch
  refine ⟨a, h1, h2, fun g hg => ?_⟩
  obtain ⟨q1, -, q3, q4, q5, -⟩ := h3 g hg
  refine ⟨q1, fun c => ?_⟩
  cases c with
  | memSameStart => exact q3.memStarts.1
  | memNonzeroStart => exact q3.memStarts.2
  | insSameStart => exact q3.insStarts.1
  | insNonzeroStart => exact q3.insStarts.2
  | insSumZero => exact q3.programSums.ins
  | programSumZero => exact q3.programSums.prog
  | insSumStop => exact q3.programSums.stop
  | procInputZero => exact q3.inputSums.proc
  | inputZero => exact q3.inputSums.inp
  | inputStop => exact q3.inputSums.stop
  | procOutputZero => exact q4.proc
  | outputZero => exact q4.out
  | outputStop => exact q4.stop
  | memFirst => exact q3.memOrder.first
  | memOrder => exact q3.memOrder.order
  | insLast => exact q3.insOrder.last
  | insNext => exact q3.insOrder.next
  | running => exact q3.running
  | reads => exact q3.reads
  | writes => exact q5

/-- A faithful assignment shows an output the program prints; so `C80_each_needed` is about
assignments `C80_enough` excludes. -/
theorem C80_faithful_prints {p : List Cmd} {input : List Nat} {mx : Matrix} {g : Grid}
    (h : Faithful p input mx g) : Prints p input (outputOf g mx.output.length) := by
  obtain ⟨t, h1, -, h3⟩ := h.result
  exact ⟨_, t, h1, h3⟩

/-- The hypotheses of the theorems above are met: program `,.` on input 7. -/
example : ∃ (s : Interp) (rows : Nat), HonestRun true [44, 46] (toFr [44, 46]) [7] 10 s ∧
    Fits rows s ∧ rows < P ∧ GoodProgram true [44, 46] (toFr [44, 46]) ∧ GoodInput 8 [7] ∧
    0 < s.matrix.instruction.length ∧ s.matrix.program.length = 2 ∧ s.matrix.input.length = 1 ∧
    ∀ ch, ∃ g, Accepts rows s.matrix (publicInputs (toFr [44, 46]) (toFr [7])) g ∧
      g.challenge = ch ∧ ∀ c : Check, c.Holds s.matrix 2 g := by
  obtain ⟨s, h, e⟩ := honest_of_map (checks := true) (src := [44, 46]) (code := toFr [44, 46])
    (input := [7]) (n := 10) (f := sizes) (x := (3, 1, 1, [7], [0, 7, 7]))
    ⟨by decide, by decide, by decide, by decide⟩ (by unfold GoodInput; decide) (by norm_num)
    (by decide +kernel)
  simp only [sizes, Prod.mk.injEq] at e
  obtain ⟨p1, o1, i1, v0, v1⟩ := e
  obtain ⟨a1, a2, -, -, -, a6⟩ := honest_lengths h.good h.bytes h.steps h.run
  have hfit : Fits 512 s := ⟨by norm_num, by rw [a1, p1]; decide⟩
  refine ⟨s, 512, h, hfit, lt_P_of_lt (k := 64) (by norm_num) (by norm_num), h.good, h.bytes,
    by rw [a1, p1]; omega, a6, i1, fun ch => ?_⟩
  obtain ⟨a, ha, ⟨g, hg⟩, hall⟩ := C80_honest true _ _ _ _ 512 s h hfit (by norm_num) ch
  exact ⟨g, (hall g hg).1, funext hg.challenge, (hall g hg).2⟩

/-- Not everything is rare: the set of all challenges is not, for any `n < P`. So the sets of
`C80_each_needed`, whose complements are rare, are not empty. -/
example {n : Nat} (hn : n < P) : ¬ Rare n (Set.univ : Set (Fin 11 → Fr)) := by
  unfold Rare
  rw [Set.ncard_univ, Nat.card_eq_fintype_card, Fintype.card_fun, ZMod.card, Fintype.card_fin]
  intro h
  have h0 : 0 < P ^ 11 := pow_pos (by decide +kernel) 11
  have h1 : P ^ 11 * P ≤ P ^ 11 * n := by rw [mul_comm _ n]; exact h
  exact absurd (Nat.le_of_mul_le_mul_left h1 h0) (by omega)

#print axioms C80_enough
#print axioms C80_each_needed
#print axioms C80_honest
#print axioms C80_faithful_prints

end Verif.Props
