import Verif.Lemmas.FetchLast
import Verif.Lemmas.ForgeLemmas
import Verif.Spec.Checks
import Verif.Props.Soundness

/-! Assignments that pass all checks but one (helper for the property theorems). -/

namespace Verif

open BF Spec Props

/-- The challenges as a function. -/
def spread (x : Fin 11 → Fr) (i : Nat) : Fr := if h : i < 11 then x ⟨i, h⟩ else 0

/-- An accepted assignment listing the tables `mx`, with the running columns started from `st`. -/
structure Rigged (n : Nat) (mx : Matrix) (code input : List Fr) (ch : Nat → Fr) (st : Starts)
    (g : Grid) : Prop where
  accepts : Accepts n mx (publicInputs code input) g
  challenge : g.challenge = ch
  first : ∀ c r, FirstPhase c → g.advice c r = plainAdvice mx input code c r
  s7 : g.advice 7 0 = st.proc.memPrp
  s8 : g.advice 8 0 = st.proc.instPrp
  s9 : g.advice 9 0 = st.proc.outputRs
  s10 : g.advice 10 0 = st.proc.inputRs
  s14 : g.advice 14 0 = st.mem
  s18 : g.advice 18 0 = st.inst.1
  s19 : g.advice 19 0 = st.inst.2
  s21 : g.advice 21 0 = st.out
  s24 : g.advice 24 0 = st.inp
  s27 : g.advice 27 0 = st.prog
  out : outputOf g mx.output.length = mx.output

/-- The tables leave room in 512 rows. -/
def small (mx : Matrix) : Bool :=
  decide (0 < mx.processor.length) && decide (mx.processor.length < 500) &&
  decide (mx.memory.length < 500) && decide (0 < mx.instruction.length) &&
  decide (mx.instruction.length < 500) &&
  decide (mx.output.length < 500) && decide (mx.input.length < 500) &&
  decide (mx.program.length < 500)

theorem rig {mx : Matrix} {code input : List Fr} (ch : Nat → Fr) (st : Starts)
    (hsm : small mx = true) (hg : goodRows mx = true)
    (hlast : ∀ r, mx.processor.getLast? = some r → r.current_instruction ≠ frOfByte GETCHAR)
    (hc : mx.program.length = code.length) (hl : mx.input.length = input.length)
    (hmem : st.proc.memPrp * (mx.processor.map (procMemFactor ch)).prod =
      st.mem * (mx.memory.map (memFactor ch)).prod)
    (hinst : st.proc.instPrp * (mx.processor.map (procInstFactor ch)).prod =
      st.inst.1 * ((stayRows mx.instruction).map (instFactor ch)).prod) :
    ∃ g, Rigged 512 mx code input ch st g := by
  unfold small at hsm
  simp only [Bool.and_eq_true, decide_eq_true_eq] at hsm
  obtain ⟨⟨⟨⟨⟨⟨⟨b0, b1⟩, b2⟩, b3⟩, b4⟩, b5⟩, b6⟩, b7⟩ := hsm
  have e0 : (publicInputs code input 0).length = code.length + 1 := rfl
  have e1 : (publicInputs code input 1).length = input.length + 1 := rfl
  obtain ⟨a, ha⟩ := (synthesize_exists_iff 512 mx ch (publicInputs code input)).2
    ⟨by omega, by omega, by omega, procAccs_total _ _ hlast, by omega, by omega, by omega, by omega,
      by omega, by omega, by omega, by omega⟩
  obtain ⟨g1, g2⟩ := goodRows_sound hg
  obtain ⟨g, as, q1, q2, q3, hcols⟩ := forge st ha ⟨rfl, rfl, rfl, rfl, rfl, rfl⟩ hc hl g1 g2 hlast
    hmem hinst
  refine ⟨g, q1, q2, q3, ?_, ?_, ?_, ?_, ?_, ?_, ?_, ?_, ?_, ?_, ?_⟩
  · exact hcols.procRun 7 (by omega) 0 _ rfl (by omega)
  · exact hcols.procRun 8 (by omega) 0 _ rfl (by omega)
  · exact hcols.procRun 9 (by omega) 0 _ rfl (by omega)
  · exact hcols.procRun 10 (by omega) 0 _ rfl (by omega)
  · exact hcols.memRun 0 _ rfl
  · exact (hcols.insRun 0 _ rfl).1
  · exact (hcols.insRun 0 _ rfl).2 b3
  · exact hcols.outRun 0 _ rfl
  · exact hcols.inpRun 0 _ rfl
  · exact hcols.progRun 0 _ rfl
  · exact column_eq (c := 20) fun i hi => by
      obtain ⟨v, hv⟩ := some_of_lt hi
      rw [hcols.out i v hv, List.getD_eq_getElem?_getD, hv]; rfl

section

variable (mx : Matrix) (code input : List Fr)

/-- The words the instruction table lists. -/
def listed : List Fr :=
  changes (plainAdvice mx input code 15) (plainAdvice mx input code 16) (mx.instruction.length - 1)
/-- The rows of the processor table. -/
def rowsOf (i : Nat) : Row := row (plain (plainAdvice mx input code)) i
/-- What the program reads. -/
def readList : List Fr := readsOf (rowsOf mx code input) (mx.processor.length - 1)
/-- What it prints. -/
def writeList : List Fr := writesOf (rowsOf mx code input) (mx.processor.length - 1)

/-- What the checks say about a rigged assignment. -/
def Passes (st : Starts) (ch : Nat → Fr) : Check → Prop
  | .memSameStart => st.proc.memPrp = st.mem
  | .memNonzeroStart => st.mem ≠ 0
  | .insSameStart => st.proc.instPrp = st.inst.1
  | .insNonzeroStart => st.inst.1 ≠ 0
  | .insSumZero => st.inst.2 = 0
  | .programSumZero => st.prog = 0
  | .insSumStop => st.prog * ch 8 ^ code.length + runningSum (ch 8) code =
      st.inst.2 * ch 8 ^ (listed mx code input).length + runningSum (ch 8) (listed mx code input)
  | .procInputZero => st.proc.inputRs = 0
  | .inputZero => st.inp = 0
  | .inputStop => st.inp * ch 10 ^ input.length + runningSum (ch 10) input =
      st.proc.inputRs * ch 10 ^ (readList mx code input).length +
        runningSum (ch 10) (readList mx code input)
  | .procOutputZero => st.proc.outputRs = 0
  | .outputZero => st.out = 0
  | .outputStop => st.out * ch 9 ^ mx.output.length + runningSum (ch 9) mx.output =
      st.proc.outputRs * ch 9 ^ (writeList mx code input).length +
        runningSum (ch 9) (writeList mx code input)
  | .memFirst => plainAdvice mx input code 12 0 = 0
  | .memOrder => ∀ k, k < mx.memory.length - 1 →
      plainAdvice mx input code 12 (k + 1) = plainAdvice mx input code 12 k →
      (plainAdvice mx input code 11 k).val < (plainAdvice mx input code 11 (k + 1)).val
  | .insLast => plainAdvice mx input code 15 (mx.instruction.length - 1) = (code.length : Fr)
  | .insNext => ∀ k, k < mx.instruction.length - 1 →
      plainAdvice mx input code 15 (k + 1) ≠ plainAdvice mx input code 15 k →
      plainAdvice mx input code 17 k = plainAdvice mx input code 16 (k + 1)
  | .running => ∀ i, i < mx.processor.length - 1 → plainAdvice mx input code 2 i ≠ (code.length : Fr)
  | .reads => (readList mx code input).length = mx.input.length
  | .writes => (writeList mx code input).length = mx.output.length

end

theorem Rigged.holds {n : Nat} {mx : Matrix} {code input : List Fr} {ch : Nat → Fr} {st : Starts}
    {g : Grid} (h : Rigged n mx code input ch st g) (hc : mx.program.length = code.length)
    (hl : mx.input.length = input.length)
    (hop : ∀ i, i < mx.processor.length - 1 →
      ∃ op ∈ OPCODES, plainAdvice mx input code 1 i = frOfByte op) :
    ∀ c, Passes mx code input st ch c → c.Holds mx code.length g := by
  have F := accepts_facts h.accepts
  have hrow : row g = rowsOf mx code input := first_rows h.first
  have hop' : ∀ i, i + 1 < mx.processor.length → ∃ op ∈ OPCODES, (row g i).ci = frOfByte op := by
    intro i hi
    rw [hrow]
    exact hop i (by omega)
  have c11 := first_col h.first (c := 11) (by simp)
  have c12 := first_col h.first (c := 12) (by simp)
  have c15 := first_col h.first (c := 15) (by simp)
  have c16 := first_col h.first (c := 16) (by simp)
  have c17 := first_col h.first (c := 17) (by simp)
  have hchg : changes (g.advice 15) (g.advice 16) (mx.instruction.length - 1) = listed mx code input := by
    rw [c15, c16]; rfl
  have hpc := F.progCells
  rw [hc] at hpc
  have hic := F.inpCells
  rw [hl] at hic
  have hout : column g 20 mx.output.length = mx.output := h.out
  intro c hp
  cases c with
  | memSameStart => exact h.s7.trans (Eq.trans hp h.s14.symm)
  | memNonzeroStart => exact fun e => hp (h.s14.symm.trans e)
  | insSameStart => exact h.s8.trans (Eq.trans hp h.s18.symm)
  | insNonzeroStart => exact fun e => hp (h.s18.symm.trans e)
  | insSumZero => exact h.s19.trans hp
  | programSumZero => exact h.s27.trans hp
  | insSumStop =>
    show g.advice 19 mx.instruction.length = g.advice 19 (mx.instruction.length - 1)
    rw [← F.copyProg, F.progSum, F.insSum, hchg, h.s19, h.s27, h.challenge, hc, column_eq hpc]
    exact hp
  | procInputZero => exact h.s10.trans hp
  | inputZero => exact h.s24.trans hp
  | inputStop =>
    show g.advice 10 mx.processor.length = g.advice 10 (mx.processor.length - 1)
    rw [← F.copyIn, F.inSum, F.procIn hop', hrow, h.s10, h.s24, h.challenge, hl, column_eq hic]
    exact hp
  | procOutputZero => exact h.s9.trans hp
  | outputZero => exact h.s21.trans hp
  | outputStop =>
    show g.advice 9 mx.processor.length = g.advice 9 (mx.processor.length - 1)
    rw [← F.copyOut, F.outSum, F.procOut hop', hrow, h.s9, h.s21, h.challenge, hout]
    exact hp
  | memFirst =>
    show g.advice 12 0 = 0
    rw [c12]; exact hp
  | memOrder =>
    show ∀ k, k + 1 < mx.memory.length → g.advice 12 (k + 1) = g.advice 12 k →
      (g.advice 11 k).val < (g.advice 11 (k + 1)).val
    rw [c11, c12]
    exact fun k hk => hp k (by omega)
  | insLast =>
    show g.advice 15 (mx.instruction.length - 1) = (code.length : Fr)
    rw [c15]; exact hp
  | insNext =>
    show ∀ k, k + 1 < mx.instruction.length → g.advice 15 (k + 1) ≠ g.advice 15 k →
      g.advice 17 k = g.advice 16 (k + 1)
    rw [c15, c16, c17]
    exact fun k hk => hp k (by omega)
  | running =>
    show ∀ i, i + 1 < mx.processor.length → (row g i).ip ≠ (code.length : Fr)
    rw [hrow]
    exact fun i hi => hp i (by omega)
  | reads =>
    show commandCount mx g .get = mx.input.length
    refine Eq.trans ?_ hp
    unfold commandCount readList readsOf
    rw [flatMap_if_length, hrow]
    rfl
  | writes =>
    show commandCount mx g .put = mx.output.length
    refine Eq.trans ?_ hp
    unfold commandCount writeList writesOf
    rw [flatMap_if_length, hrow]
    rfl

/-- What is to be shown for a rigged assignment that passes all checks but one. -/
theorem needed_of {checks : Bool} {src : List UInt8} {code : List Fr} {input : List Nat} {mx : Matrix} (c : Check)
    (st : (Nat → Fr) → Starts) (ok : (Nat → Fr) → Prop) (hp : GoodProgram checks src code)
    (hi : GoodInput 8 input) (hsm : small mx = true) (hg : goodRows mx = true)
    (hlast : ∀ r, mx.processor.getLast? = some r → r.current_instruction ≠ frOfByte GETCHAR)
    (hc : mx.program.length = code.length) (hl : mx.input.length = input.length)
    (hop : ∀ i, i < mx.processor.length - 1 →
      ∃ op ∈ OPCODES, plainAdvice mx (toFr input) code 1 i = frOfByte op)
    (hmem : ∀ ch, ok ch → (st ch).proc.memPrp * (mx.processor.map (procMemFactor ch)).prod =
      (st ch).mem * (mx.memory.map (memFactor ch)).prod)
    (hinst : ∀ ch, ok ch → (st ch).proc.instPrp * (mx.processor.map (procInstFactor ch)).prod =
      (st ch).inst.1 * ((stayRows mx.instruction).map (instFactor ch)).prod)
    (hpass : ∀ ch, ok ch → ∀ c', c' ≠ c → Passes mx code (toFr input) (st ch) ch c')
    (hrare : Rare 512 {x | ¬ ok (spread x)})
    (hout : ¬ Prints (commands src) input mx.output) :
    Needed c (GoodProgram checks) := by
  refine ⟨src, code, input, 512, mx, plainAdvice mx (toFr input) code, hp, hi,
    lt_P_of_lt (k := 64) (by norm_num) (by norm_num), ?_, hc, hl, ?_⟩
  · unfold small at hsm
    simp only [Bool.and_eq_true, decide_eq_true_eq] at hsm
    exact hsm.1.1.1.1.2
  · refine Rare.mono hrare ?_ (le_refl _)
    intro x hx hok
    apply hx
    obtain ⟨g, hr⟩ := rig (code := code) (input := toFr input) (spread x) (st (spread x)) hsm hg hlast
      hc (by rw [toFr_length]; exact hl) (hmem _ hok) (hinst _ hok)
    refine ⟨g, hr.accepts, ?_, hr.first, ?_, ?_⟩
    · intro i
      rw [hr.challenge]
      exact dif_pos i.2
    · intro c' hc'
      exact hr.holds hc (by rw [toFr_length]; exact hl) hop c' (hpass _ hok c' hc')
    · rw [hr.out]; exact hout

/-- The product of a table vanishes for few challenges only. -/
theorem rare_zero {a d e f : Fin 11} (hd : Distinct4 a d e f) (T : List (Fr × Fr × Fr))
    (hT : T.length ≤ 512) :
    Rare 512 {x | tableProduct (x a) (x d) (x e) (x f) T = 0} := by
  have hne : prodPoly a d e f T ≠ 0 := by
    intro hz
    have := prodPoly_eval a d e f T (fun i => if i = a then 1 else 0)
    rw [hz, map_zero, if_pos rfl, if_neg hd.ad.symm, if_neg hd.ae.symm, if_neg hd.af.symm] at this
    have e1 : ∀ T : List (Fr × Fr × Fr), tableProduct 1 0 0 0 T = 1 := by
      intro T
      unfold tableProduct
      apply List.prod_eq_one
      intro v hv
      obtain ⟨t, -, rfl⟩ := List.mem_map.1 hv
      simp [rowFactor]
    rw [e1] at this
    exact one_ne_zero this.symm
  have := zeros_bound hne (le_trans (prodPoly_degree a d e f T) hT)
  have e : {x : Fin 11 → Fr | MvPolynomial.eval x (prodPoly a d e f T) = 0} =
      {x : Fin 11 → Fr | tableProduct (x a) (x d) (x e) (x f) T = 0} := by
    ext x
    simp only [Set.mem_ofPred_eq, prodPoly_eval]
  unfold Rare
  rwa [e] at this

/-- Two finished runs print the same. -/
theorem not_prints {checks : Bool} {src : List UInt8} {code : List Fr} {input : List Nat} {n : Nat}
    {out out' : List Fr} (hp : GoodProgram checks src code) (hi : GoodInput 8 input)
    (hn : n ≤ 2 ^ 62)
    (h : (runOn n 8 code input).map (fun r => r.map (fun s => s.matrix.output)) = some (.ok out'))
    (hne : out ≠ out') : ¬ Prints (commands src) input out := by
  rintro ⟨m, t, h1, h2⟩
  obtain ⟨s, hs, e⟩ := ok_of_map h
  obtain ⟨m', t', -, f1, f2⟩ := C05_run_agrees checks src code 8 input n s hp (by norm_num) hi hn hs
  obtain ⟨-, rfl⟩ := h1.unique f1
  apply hne
  rw [← e, f2.output, h2]
  rfl

theorem not_prints_error {checks : Bool} {src : List UInt8} {code : List Fr} {input : List Nat}
    {n : Nat} {out : List Fr} (hp : GoodProgram checks src code) (hi : GoodInput 8 input)
    (hn : n ≤ 2 ^ 62) (h : runOn n 8 code input = some (.error .index)) :
    ¬ Prints (commands src) input out := by
  rintro ⟨m, t, h1, -⟩
  obtain ⟨m', -, hf⟩ := (C06_panic_iff checks src code 8 input n hp (by norm_num) hi hn).1.1 h
  exact hf.not_finishes h1

/-- The starting values pass all checks but `c`. -/
structure StartsOk (c : Check) (st : Starts) : Prop where
  memSame : c ≠ .memSameStart → st.proc.memPrp = st.mem
  memNonzero : c ≠ .memNonzeroStart → st.mem ≠ 0
  insSame : c ≠ .insSameStart → st.proc.instPrp = st.inst.1
  insNonzero : c ≠ .insNonzeroStart → st.inst.1 ≠ 0
  insSum : c ≠ .insSumZero → st.inst.2 = 0
  program : c ≠ .programSumZero → st.prog = 0
  procInput : c ≠ .procInputZero → st.proc.inputRs = 0
  input : c ≠ .inputZero → st.inp = 0
  procOutput : c ≠ .procOutputZero → st.proc.outputRs = 0
  output : c ≠ .outputZero → st.out = 0

/-- Checks of the tables only. -/
def tableBool (mx : Matrix) (code input : List Fr) : Check → Bool
  | .memFirst => decide (plainAdvice mx input code 12 0 = 0)
  | .memOrder => decide (∀ k, k < mx.memory.length - 1 →
      plainAdvice mx input code 12 (k + 1) = plainAdvice mx input code 12 k →
      (plainAdvice mx input code 11 k).val < (plainAdvice mx input code 11 (k + 1)).val)
  | .insLast => decide (plainAdvice mx input code 15 (mx.instruction.length - 1) =
      (code.length : Fr))
  | .insNext => decide (∀ k, k < mx.instruction.length - 1 →
      plainAdvice mx input code 15 (k + 1) ≠ plainAdvice mx input code 15 k →
      plainAdvice mx input code 17 k = plainAdvice mx input code 16 (k + 1))
  | .running => decide (∀ i, i < mx.processor.length - 1 →
      plainAdvice mx input code 2 i ≠ (code.length : Fr))
  | .reads => decide ((readList mx code input).length = mx.input.length)
  | .writes => decide ((writeList mx code input).length = mx.output.length)
  | _ => true

theorem passes_all {c : Check} {mx : Matrix} {code input : List Fr} {st : Starts} {ch : Nat → Fr}
    (h1 : StartsOk c st)
    (h2 : ∀ c' ∈ [Check.memFirst, .memOrder, .insLast, .insNext, .running, .reads, .writes],
      c' ≠ c → tableBool mx code input c' = true)
    (e8 : c ≠ .insSumStop → Passes mx code input st ch .insSumStop)
    (e10 : c ≠ .inputStop → Passes mx code input st ch .inputStop)
    (e9 : c ≠ .outputStop → Passes mx code input st ch .outputStop) :
    ∀ c', c' ≠ c → Passes mx code input st ch c' := by
  intro c' hne
  cases c' with
  | memSameStart => exact h1.memSame hne.symm
  | memNonzeroStart => exact h1.memNonzero hne.symm
  | insSameStart => exact h1.insSame hne.symm
  | insNonzeroStart => exact h1.insNonzero hne.symm
  | insSumZero => exact h1.insSum hne.symm
  | programSumZero => exact h1.program hne.symm
  | insSumStop => exact e8 hne.symm
  | procInputZero => exact h1.procInput hne.symm
  | inputZero => exact h1.input hne.symm
  | inputStop => exact e10 hne.symm
  | procOutputZero => exact h1.procOutput hne.symm
  | outputZero => exact h1.output hne.symm
  | outputStop => exact e9 hne.symm
  | memFirst =>
    have := h2 _ (by simp) hne
    simp only [tableBool, decide_eq_true_eq] at this
    exact this
  | memOrder =>
    have := h2 _ (by simp) hne
    simp only [tableBool, decide_eq_true_eq] at this
    exact this
  | insLast =>
    have := h2 _ (by simp) hne
    simp only [tableBool, decide_eq_true_eq] at this
    exact this
  | insNext =>
    have := h2 _ (by simp) hne
    simp only [tableBool, decide_eq_true_eq] at this
    exact this
  | running =>
    have := h2 _ (by simp) hne
    simp only [tableBool, decide_eq_true_eq] at this
    exact this
  | reads =>
    have := h2 _ (by simp) hne
    simp only [tableBool, decide_eq_true_eq] at this
    exact this
  | writes =>
    have := h2 _ (by simp) hne
    simp only [tableBool, decide_eq_true_eq] at this
    exact this

end Verif
