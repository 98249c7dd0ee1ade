import Verif.Lemmas.Checks

/-! For each check, tables that pass all others and show a wrong output. -/

namespace Verif

open BF Spec Props

/-- A row of the processor table. -/
def pr (clk ip ci ni mp mv : Fr) : Register :=
  { cycle := clk, instruction_pointer := ip, current_instruction := ci, next_instruction := ni,
    memory_pointer := mp, memory_value := mv, memory_value_inverse := mv }

/-- `>.` that prints 1. -/
def mxMem : Matrix where
  processor := [pr 0 0 62 46 0 0, pr 1 1 46 0 1 1, pr 2 2 0 0 1 1]
  memory := [⟨0, 0, 0, 0⟩, ⟨1, 1, 0, 0⟩, ⟨2, 1, 0, 0⟩]
  instruction := [⟨0, 62, 46⟩, ⟨0, 62, 46⟩, ⟨1, 46, 0⟩, ⟨1, 46, 0⟩, ⟨2, 0, 0⟩]
  output := [1]
  program := toFr [62, 46]

/-- The instructions of `+.`, and a run of `>.`. -/
def mxIns : Matrix where
  processor := [pr 0 0 62 46 0 0, pr 1 1 46 0 1 0, pr 2 2 0 0 1 0]
  memory := [⟨0, 0, 0, 0⟩, ⟨1, 1, 0, 0⟩, ⟨2, 1, 0, 0⟩]
  instruction := [⟨0, 43, 46⟩, ⟨0, 43, 46⟩, ⟨1, 46, 0⟩, ⟨1, 46, 0⟩, ⟨2, 0, 0⟩]
  output := [0]
  program := toFr [43, 46]

/-- The instructions and a run of `>.`, for the program `+.`. -/
def mxProg : Matrix where
  processor := [pr 0 0 62 46 0 0, pr 1 1 46 0 1 0, pr 2 2 0 0 1 0]
  memory := [⟨0, 0, 0, 0⟩, ⟨1, 1, 0, 0⟩, ⟨2, 1, 0, 0⟩]
  instruction := [⟨0, 62, 46⟩, ⟨0, 62, 46⟩, ⟨1, 46, 0⟩, ⟨1, 46, 0⟩, ⟨2, 0, 0⟩]
  output := [0]
  program := toFr [43, 46]

/-- A run of `,.,.` that reads 0, 1; the input is 1, 1. -/
def mxInp : Matrix where
  processor := [pr 0 0 44 46 0 0, pr 1 1 46 44 0 0, pr 2 2 44 46 0 0, pr 3 3 46 0 0 1, pr 4 4 0 0 0 1]
  memory := [⟨0, 0, 0, 0⟩, ⟨1, 0, 0, 0⟩, ⟨2, 0, 0, 0⟩, ⟨3, 0, 1, 0⟩, ⟨4, 0, 1, 0⟩]
  instruction := [⟨0, 44, 46⟩, ⟨0, 44, 46⟩, ⟨1, 46, 44⟩, ⟨1, 46, 44⟩, ⟨2, 44, 46⟩, ⟨2, 44, 46⟩,
    ⟨3, 46, 0⟩, ⟨3, 46, 0⟩, ⟨4, 0, 0⟩]
  input := [1, 1]
  output := [0, 1]
  program := toFr [44, 46, 44, 46]

/-- A run of `.+.`, which prints 0, 1; the output table says 1, 1. -/
def mxOut : Matrix where
  processor := [pr 0 0 46 43 0 0, pr 1 1 43 46 0 0, pr 2 2 46 0 0 1, pr 3 3 0 0 0 1]
  memory := [⟨0, 0, 0, 0⟩, ⟨1, 0, 0, 0⟩, ⟨2, 0, 1, 0⟩, ⟨3, 0, 1, 0⟩]
  instruction := [⟨0, 46, 43⟩, ⟨0, 46, 43⟩, ⟨1, 43, 46⟩, ⟨1, 43, 46⟩, ⟨2, 46, 0⟩, ⟨2, 46, 0⟩,
    ⟨3, 0, 0⟩]
  output := [1, 1]
  program := toFr [46, 43, 46]

/-- A run of `<.`. -/
def mxLeft : Matrix where
  processor := [pr 0 0 60 46 0 0, pr 1 1 46 0 (-1) 0, pr 2 2 0 0 (-1) 0]
  memory := [⟨1, -1, 0, 0⟩, ⟨2, -1, 0, 0⟩, ⟨0, 0, 0, 0⟩]
  instruction := [⟨0, 60, 46⟩, ⟨0, 60, 46⟩, ⟨1, 46, 0⟩, ⟨1, 46, 0⟩, ⟨2, 0, 0⟩]
  output := [0]
  program := toFr [60, 46]

/-- A run of `+.` that starts at the dot. -/
def mxLast : Matrix where
  processor := [pr 0 0 46 0 0 0, pr 1 1 0 0 0 0]
  memory := [⟨0, 0, 0, 0⟩, ⟨1, 0, 0, 0⟩]
  instruction := [⟨-1, 43, 46⟩, ⟨0, 46, 0⟩, ⟨0, 46, 0⟩, ⟨1, 0, 0⟩]
  output := [0]
  program := toFr [43, 46]

/-- A run of `[.]` that enters the loop. -/
def mxNext : Matrix where
  processor := [pr 0 0 91 2 0 0, pr 1 2 46 93 0 0, pr 2 3 93 2 0 0, pr 3 5 0 0 0 0]
  memory := [⟨0, 0, 0, 0⟩, ⟨1, 0, 0, 0⟩, ⟨2, 0, 0, 0⟩, ⟨3, 0, 0, 0⟩]
  instruction := [⟨0, 91, 2⟩, ⟨0, 91, 2⟩, ⟨1, 5, 46⟩, ⟨2, 46, 93⟩, ⟨2, 46, 93⟩, ⟨3, 93, 2⟩,
    ⟨3, 93, 2⟩, ⟨4, 2, 0⟩, ⟨5, 0, 0⟩]
  output := [0]
  program := toFr [91, 5, 46, 93, 2]

/-- A run of `.` that starts again after the end. -/
def mxRunning : Matrix where
  processor := [pr 0 0 46 91 0 0, pr 1 1 91 0 0 0, pr 2 0 46 91 0 0, pr 3 1 91 0 0 0]
  memory := [⟨0, 0, 0, 0⟩, ⟨1, 0, 0, 0⟩, ⟨2, 0, 0, 0⟩, ⟨3, 0, 0, 0⟩]
  instruction := [⟨0, 46, 91⟩, ⟨0, 46, 91⟩, ⟨0, 46, 91⟩, ⟨1, 91, 0⟩, ⟨1, 91, 0⟩]
  output := [0, 0]
  program := toFr [46]

/-- A run of `,.` on the input 0, 1 that reads 1. -/
def mxReads : Matrix where
  processor := [pr 0 0 44 46 0 0, pr 1 1 46 0 0 1, pr 2 2 0 0 0 1]
  memory := [⟨0, 0, 0, 0⟩, ⟨1, 0, 1, 0⟩, ⟨2, 0, 1, 0⟩]
  instruction := [⟨0, 44, 46⟩, ⟨0, 44, 46⟩, ⟨1, 46, 0⟩, ⟨1, 46, 0⟩, ⟨2, 0, 0⟩]
  input := [0, 1]
  output := [1]
  program := toFr [44, 46]

/-- A run of `.` with an empty output table. -/
def mxWrites : Matrix where
  processor := [pr 0 0 46 0 0 0, pr 1 1 0 0 0 0]
  memory := [⟨0, 0, 0, 0⟩, ⟨1, 0, 0, 0⟩]
  instruction := [⟨0, 46, 0⟩, ⟨0, 46, 0⟩, ⟨1, 0, 0⟩]
  output := []
  program := toFr [46]

/-- Starting values that pass all checks. -/
def fairStarts : Starts := ⟨⟨1, 1, 0, 0⟩, 1, (1, 0), 0, 0, 0⟩

/-- What the tables must satisfy apart from the products and sums. -/
def tablesOk (c : Check) (mx : Matrix) (code : List Fr) (input : List Nat) : Bool :=
  small mx && goodRows mx &&
  decide (∀ r ∈ mx.processor.getLast?, r.current_instruction ≠ frOfByte GETCHAR) &&
  decide (mx.program.length = code.length) && decide (mx.input.length = input.length) &&
  decide (∀ i, i < mx.processor.length - 1 →
    ∃ op ∈ OPCODES, plainAdvice mx (toFr input) code 1 i = frOfByte op) &&
  decide (∀ c' ∈ [Check.memFirst, .memOrder, .insLast, .insNext, .running, .reads, .writes],
      c' ≠ c → tableBool mx code (toFr input) c' = true)

theorem needed_general {checks : Bool} {src : List UInt8} {code : List Fr} {input : List Nat}
    {mx : Matrix} (c : Check) (st : (Nat → Fr) → Starts) (ok : (Nat → Fr) → Prop)
    (L : List Fr) (R : List Fr) (W : List Fr)
    (hp : GoodProgram checks src code) (hi : GoodInput 8 input)
    (ht : tablesOk c mx code input = true)
    (hL : listed mx code (toFr input) = L) (hR : readList mx code (toFr input) = R)
    (hW : writeList mx code (toFr input) = W)
    (hmem : ∀ ch, ok ch → (st ch).proc.memPrp * (mx.processor.map (procMemFactor ch)).prod =
      (st ch).mem * (mx.memory.map (memFactor ch)).prod)
    (hinst : ∀ ch, ok ch → (st ch).proc.instPrp * (mx.processor.map (procInstFactor ch)).prod =
      (st ch).inst.1 * ((stayRows mx.instruction).map (instFactor ch)).prod)
    (hst : ∀ ch, ok ch → StartsOk c (st ch))
    (e8 : c ≠ .insSumStop → ∀ ch, (st ch).prog * ch 8 ^ code.length + runningSum (ch 8) code =
      (st ch).inst.2 * ch 8 ^ L.length + runningSum (ch 8) L)
    (e10 : c ≠ .inputStop → ∀ ch, (st ch).inp * ch 10 ^ (toFr input).length +
      runningSum (ch 10) (toFr input) =
      (st ch).proc.inputRs * ch 10 ^ R.length + runningSum (ch 10) R)
    (e9 : c ≠ .outputStop → ∀ ch, (st ch).out * ch 9 ^ mx.output.length +
      runningSum (ch 9) mx.output =
      (st ch).proc.outputRs * ch 9 ^ W.length + runningSum (ch 9) W)
    (hrare : Rare 512 {x | ¬ ok (spread x)})
    (hout : ¬ Prints (commands src) input mx.output) : Needed c (GoodProgram checks) := by
  unfold tablesOk at ht
  simp only [Bool.and_eq_true, decide_eq_true_eq] at ht
  obtain ⟨⟨⟨⟨⟨⟨t1, t2⟩, t3⟩, t4⟩, t5⟩, t6⟩, t7⟩ := ht
  subst hL hR hW
  exact needed_of c st ok hp hi t1 t2 t3 t4 t5 t6 hmem hinst
    (fun ch hok => passes_all (hst ch hok) t7 (fun h => e8 h ch) (fun h => e10 h ch)
      (fun h => e9 h ch)) hrare hout

theorem rare_none : Rare 512 {x : Fin 11 → Fr | ¬ True} := by
  unfold Rare
  simp

/-- Tables whose products and start values are right. -/
theorem needed_sums {checks : Bool} {src : List UInt8} {code : List Fr} {input : List Nat}
    {mx : Matrix} (c : Check) (st : (Nat → Fr) → Starts)
    (L : List Fr) (R : List Fr) (W : List Fr)
    (hp : GoodProgram checks src code) (hi : GoodInput 8 input)
    (ht : tablesOk c mx code input = true)
    (hL : listed mx code (toFr input) = L) (hR : readList mx code (toFr input) = R)
    (hW : writeList mx code (toFr input) = W)
    (hm : decide (mx.memory.Perm (mx.processor.map MemRow.ofRegister)) = true)
    (hin : decide ((stayRows mx.instruction).Perm (mx.processor.map InstrRow.ofRegister)) = true)
    (h1 : ∀ ch, (st ch).proc.memPrp = (st ch).mem)
    (h2 : ∀ ch, (st ch).proc.instPrp = (st ch).inst.1)
    (hst : ∀ ch, StartsOk c (st ch))
    (e8 : c ≠ .insSumStop → ∀ ch, (st ch).prog * ch 8 ^ code.length + runningSum (ch 8) code =
      (st ch).inst.2 * ch 8 ^ L.length + runningSum (ch 8) L)
    (e10 : c ≠ .inputStop → ∀ ch, (st ch).inp * ch 10 ^ (toFr input).length +
      runningSum (ch 10) (toFr input) =
      (st ch).proc.inputRs * ch 10 ^ R.length + runningSum (ch 10) R)
    (e9 : c ≠ .outputStop → ∀ ch, (st ch).out * ch 9 ^ mx.output.length +
      runningSum (ch 9) mx.output =
      (st ch).proc.outputRs * ch 9 ^ W.length + runningSum (ch 9) W)
    (hout : ¬ Prints (commands src) input mx.output) : Needed c (GoodProgram checks) :=
  needed_general c st (fun _ => True) L R W hp hi ht hL hR hW
    (fun ch _ => by rw [h1, mem_product ch (of_decide_eq_true hm)])
    (fun ch _ => by rw [h2, inst_product ch (of_decide_eq_true hin)])
    (fun ch _ => hst ch) e8 e10 e9 rare_none hout

theorem fair_ok (c : Check) : StartsOk c fairStarts := by
  constructor <;> intro _ <;> first | rfl | exact one_ne_zero

/-- Solves equations between short running sums. -/
macro "sums" : tactic => `(tactic| (intro h ch; first
  | exact absurd rfl h
  | rfl
  | (simp [runningSum, toFr, fairStarts, mxWrites]; done)))

theorem gamma_sq (x : Fr) (v : Fr) : v * x⁻¹ * x ^ 2 = v * x := by
  by_cases h : x = 0
  · rw [h]; ring
  · field_simp

theorem needed_insSumZero : Needed .insSumZero (GoodProgram true) := by
  have hp : GoodProgram true [43, 46] (toFr [43, 46]) :=
    ⟨by decide, by decide, by decide, by decide⟩
  have hi : GoodInput 8 [] := by unfold GoodInput; decide
  exact needed_sums (mx := mxProg) .insSumZero (fun ch => { fairStarts with inst := (1, -19 * (ch 8)⁻¹) })
    (toFr [62, 46]) [] [0] hp hi
    (by decide +kernel) (by decide +kernel) (by decide +kernel) (by decide +kernel)
    (by decide +kernel) (by decide +kernel) (fun _ => rfl) (fun _ => rfl) (fun ch => by
      constructor <;> intro h <;> first | exact absurd rfl h | rfl | exact one_ne_zero)
    (by
      intro _ ch
      simp [runningSum, toFr, fairStarts, gamma_sq]
      try ring) (by sums) (by sums)
    (not_prints (n := 20) (out' := [1]) hp hi (by norm_num) (by decide +kernel)
      (by decide +kernel))

theorem needed_programSumZero : Needed .programSumZero (GoodProgram true) := by
  have hp : GoodProgram true [43, 46] (toFr [43, 46]) :=
    ⟨by decide, by decide, by decide, by decide⟩
  have hi : GoodInput 8 [] := by unfold GoodInput; decide
  exact needed_sums (mx := mxProg) .programSumZero (fun ch => { fairStarts with prog := 19 * (ch 8)⁻¹ })
    (toFr [62, 46]) [] [0] hp hi
    (by decide +kernel) (by decide +kernel) (by decide +kernel) (by decide +kernel)
    (by decide +kernel) (by decide +kernel) (fun _ => rfl) (fun _ => rfl) (fun ch => by
      constructor <;> intro h <;> first | exact absurd rfl h | rfl | exact one_ne_zero)
    (by
      intro _ ch
      simp [runningSum, toFr, fairStarts, gamma_sq]
      try ring) (by sums) (by sums)
    (not_prints (n := 20) (out' := [1]) hp hi (by norm_num) (by decide +kernel)
      (by decide +kernel))

theorem needed_insSumStop : Needed .insSumStop (GoodProgram true) := by
  have hp : GoodProgram true [43, 46] (toFr [43, 46]) :=
    ⟨by decide, by decide, by decide, by decide⟩
  have hi : GoodInput 8 [] := by unfold GoodInput; decide
  exact needed_sums (mx := mxProg) .insSumStop (fun _ => fairStarts)
    (toFr [62, 46]) [] [0] hp hi
    (by decide +kernel) (by decide +kernel) (by decide +kernel) (by decide +kernel)
    (by decide +kernel) (by decide +kernel) (fun _ => rfl) (fun _ => rfl) (fun _ => fair_ok _)
    (by sums) (by sums) (by sums)
    (not_prints (n := 20) (out' := [1]) hp hi (by norm_num) (by decide +kernel)
      (by decide +kernel))

theorem needed_procInputZero : Needed .procInputZero (GoodProgram true) := by
  have hp : GoodProgram true [44, 46, 44, 46] (toFr [44, 46, 44, 46]) :=
    ⟨by decide, by decide, by decide, by decide⟩
  have hi : GoodInput 8 [1, 1] := by unfold GoodInput; decide
  exact needed_sums (mx := mxInp) .procInputZero (fun ch => { fairStarts with proc := ⟨1, 1, 0, 1 * (ch 10)⁻¹⟩ })
    (toFr [44, 46, 44, 46]) [0, 1] [0, 1] hp hi
    (by decide +kernel) (by decide +kernel) (by decide +kernel) (by decide +kernel)
    (by decide +kernel) (by decide +kernel) (fun _ => rfl) (fun _ => rfl) (fun ch => by
      constructor <;> intro h <;> first | exact absurd rfl h | rfl | exact one_ne_zero)
    (by sums) (by
      intro _ ch
      have g := gamma_sq (ch 10) 1
      simp [runningSum, toFr, fairStarts] at g ⊢
      linear_combination -g) (by sums)
    (not_prints (n := 20) (out' := [1, 1]) hp hi (by norm_num) (by decide +kernel)
      (by decide +kernel))

theorem needed_inputZero : Needed .inputZero (GoodProgram true) := by
  have hp : GoodProgram true [44, 46, 44, 46] (toFr [44, 46, 44, 46]) :=
    ⟨by decide, by decide, by decide, by decide⟩
  have hi : GoodInput 8 [1, 1] := by unfold GoodInput; decide
  exact needed_sums (mx := mxInp) .inputZero (fun ch => { fairStarts with inp := -1 * (ch 10)⁻¹ })
    (toFr [44, 46, 44, 46]) [0, 1] [0, 1] hp hi
    (by decide +kernel) (by decide +kernel) (by decide +kernel) (by decide +kernel)
    (by decide +kernel) (by decide +kernel) (fun _ => rfl) (fun _ => rfl) (fun ch => by
      constructor <;> intro h <;> first | exact absurd rfl h | rfl | exact one_ne_zero)
    (by sums) (by
      intro _ ch
      have g := gamma_sq (ch 10) 1
      simp [runningSum, toFr, fairStarts] at g ⊢
      linear_combination -g) (by sums)
    (not_prints (n := 20) (out' := [1, 1]) hp hi (by norm_num) (by decide +kernel)
      (by decide +kernel))

theorem needed_inputStop : Needed .inputStop (GoodProgram true) := by
  have hp : GoodProgram true [44, 46, 44, 46] (toFr [44, 46, 44, 46]) :=
    ⟨by decide, by decide, by decide, by decide⟩
  have hi : GoodInput 8 [1, 1] := by unfold GoodInput; decide
  exact needed_sums (mx := mxInp) .inputStop (fun _ => fairStarts)
    (toFr [44, 46, 44, 46]) [0, 1] [0, 1] hp hi
    (by decide +kernel) (by decide +kernel) (by decide +kernel) (by decide +kernel)
    (by decide +kernel) (by decide +kernel) (fun _ => rfl) (fun _ => rfl) (fun _ => fair_ok _)
    (by sums) (by sums) (by sums)
    (not_prints (n := 20) (out' := [1, 1]) hp hi (by norm_num) (by decide +kernel)
      (by decide +kernel))

theorem needed_procOutputZero : Needed .procOutputZero (GoodProgram true) := by
  have hp : GoodProgram true [46, 43, 46] (toFr [46, 43, 46]) :=
    ⟨by decide, by decide, by decide, by decide⟩
  have hi : GoodInput 8 [] := by unfold GoodInput; decide
  exact needed_sums (mx := mxOut) .procOutputZero (fun ch => { fairStarts with proc := ⟨1, 1, 1 * (ch 9)⁻¹, 0⟩ })
    (toFr [46, 43, 46]) [] [0, 1] hp hi
    (by decide +kernel) (by decide +kernel) (by decide +kernel) (by decide +kernel)
    (by decide +kernel) (by decide +kernel) (fun _ => rfl) (fun _ => rfl) (fun ch => by
      constructor <;> intro h <;> first | exact absurd rfl h | rfl | exact one_ne_zero)
    (by sums) (by sums) (by
      intro _ ch
      have g := gamma_sq (ch 9) 1
      simp [runningSum, toFr, fairStarts, mxOut] at g ⊢
      linear_combination -g)
    (not_prints (n := 20) (out' := [0, 1]) hp hi (by norm_num) (by decide +kernel)
      (by decide +kernel))

theorem needed_outputZero : Needed .outputZero (GoodProgram true) := by
  have hp : GoodProgram true [46, 43, 46] (toFr [46, 43, 46]) :=
    ⟨by decide, by decide, by decide, by decide⟩
  have hi : GoodInput 8 [] := by unfold GoodInput; decide
  exact needed_sums (mx := mxOut) .outputZero (fun ch => { fairStarts with out := -1 * (ch 9)⁻¹ })
    (toFr [46, 43, 46]) [] [0, 1] hp hi
    (by decide +kernel) (by decide +kernel) (by decide +kernel) (by decide +kernel)
    (by decide +kernel) (by decide +kernel) (fun _ => rfl) (fun _ => rfl) (fun ch => by
      constructor <;> intro h <;> first | exact absurd rfl h | rfl | exact one_ne_zero)
    (by sums) (by sums) (by
      intro _ ch
      have g := gamma_sq (ch 9) 1
      simp [runningSum, toFr, fairStarts, mxOut] at g ⊢
      linear_combination -g)
    (not_prints (n := 20) (out' := [0, 1]) hp hi (by norm_num) (by decide +kernel)
      (by decide +kernel))

theorem needed_outputStop : Needed .outputStop (GoodProgram true) := by
  have hp : GoodProgram true [46, 43, 46] (toFr [46, 43, 46]) :=
    ⟨by decide, by decide, by decide, by decide⟩
  have hi : GoodInput 8 [] := by unfold GoodInput; decide
  exact needed_sums (mx := mxOut) .outputStop (fun _ => fairStarts)
    (toFr [46, 43, 46]) [] [0, 1] hp hi
    (by decide +kernel) (by decide +kernel) (by decide +kernel) (by decide +kernel)
    (by decide +kernel) (by decide +kernel) (fun _ => rfl) (fun _ => rfl) (fun _ => fair_ok _)
    (by sums) (by sums) (by sums)
    (not_prints (n := 20) (out' := [0, 1]) hp hi (by norm_num) (by decide +kernel)
      (by decide +kernel))

theorem needed_memFirst : Needed .memFirst (GoodProgram true) := by
  have hp : GoodProgram true [60, 46] (toFr [60, 46]) :=
    ⟨by decide, by decide, by decide, by decide⟩
  have hi : GoodInput 8 [] := by unfold GoodInput; decide
  exact needed_sums (mx := mxLeft) .memFirst (fun _ => fairStarts)
    (toFr [60, 46]) [] [0] hp hi
    (by decide +kernel) (by decide +kernel) (by decide +kernel) (by decide +kernel)
    (by decide +kernel) (by decide +kernel) (fun _ => rfl) (fun _ => rfl) (fun _ => fair_ok _)
    (by sums) (by sums) (by sums)
    (not_prints_error (n := 20) hp hi (by norm_num) (by decide +kernel))

theorem needed_memOrder : Needed .memOrder (GoodProgram true) := by
  have hp : GoodProgram true [43, 62, 60, 46] (toFr [43, 62, 60, 46]) :=
    ⟨by decide, by decide, by decide, by decide⟩
  have hi : GoodInput 8 [] := by unfold GoodInput; decide
  exact needed_sums (mx := forgedMemory) .memOrder (fun _ => fairStarts)
    (toFr [43, 62, 60, 46]) [] [0] hp hi
    (by decide +kernel) (by decide +kernel) (by decide +kernel) (by decide +kernel)
    (by decide +kernel) (by decide +kernel) (fun _ => rfl) (fun _ => rfl) (fun _ => fair_ok _)
    (by sums) (by sums) (by sums)
    (not_prints (n := 20) (out' := [1]) hp hi (by norm_num) (by decide +kernel)
      (by decide +kernel))

theorem needed_insLast : Needed .insLast (GoodProgram true) := by
  have hp : GoodProgram true [43, 46] (toFr [43, 46]) :=
    ⟨by decide, by decide, by decide, by decide⟩
  have hi : GoodInput 8 [] := by unfold GoodInput; decide
  exact needed_sums (mx := mxLast) .insLast (fun _ => fairStarts)
    (toFr [43, 46]) [] [0] hp hi
    (by decide +kernel) (by decide +kernel) (by decide +kernel) (by decide +kernel)
    (by decide +kernel) (by decide +kernel) (fun _ => rfl) (fun _ => rfl) (fun _ => fair_ok _)
    (by sums) (by sums) (by sums)
    (not_prints (n := 20) (out' := [1]) hp hi (by norm_num) (by decide +kernel)
      (by decide +kernel))

theorem needed_insNext : Needed .insNext (GoodProgram true) := by
  have hp : GoodProgram true [91, 46, 93] (toFr [91, 5, 46, 93, 2]) :=
    ⟨by decide, by decide, by decide, by decide⟩
  have hi : GoodInput 8 [] := by unfold GoodInput; decide
  exact needed_sums (mx := mxNext) .insNext (fun _ => fairStarts)
    (toFr [91, 5, 46, 93, 2]) [] [0] hp hi
    (by decide +kernel) (by decide +kernel) (by decide +kernel) (by decide +kernel)
    (by decide +kernel) (by decide +kernel) (fun _ => rfl) (fun _ => rfl) (fun _ => fair_ok _)
    (by sums) (by sums) (by sums)
    (not_prints (n := 20) (out' := []) hp hi (by norm_num) (by decide +kernel)
      (by decide +kernel))

theorem needed_running : Needed .running (GoodProgram true) := by
  have hp : GoodProgram true [46] (toFr [46]) :=
    ⟨by decide, by decide, by decide, by decide⟩
  have hi : GoodInput 8 [] := by unfold GoodInput; decide
  exact needed_sums (mx := mxRunning) .running (fun _ => fairStarts)
    (toFr [46]) [] [0, 0] hp hi
    (by decide +kernel) (by decide +kernel) (by decide +kernel) (by decide +kernel)
    (by decide +kernel) (by decide +kernel) (fun _ => rfl) (fun _ => rfl) (fun _ => fair_ok _)
    (by sums) (by sums) (by sums)
    (not_prints (n := 20) (out' := [0]) hp hi (by norm_num) (by decide +kernel)
      (by decide +kernel))

theorem needed_reads : Needed .reads (GoodProgram true) := by
  have hp : GoodProgram true [44, 46] (toFr [44, 46]) :=
    ⟨by decide, by decide, by decide, by decide⟩
  have hi : GoodInput 8 [0, 1] := by unfold GoodInput; decide
  exact needed_sums (mx := mxReads) .reads (fun _ => fairStarts)
    (toFr [44, 46]) [1] [1] hp hi
    (by decide +kernel) (by decide +kernel) (by decide +kernel) (by decide +kernel)
    (by decide +kernel) (by decide +kernel) (fun _ => rfl) (fun _ => rfl) (fun _ => fair_ok _)
    (by sums) (by sums) (by sums)
    (not_prints (n := 20) (out' := [0]) hp hi (by norm_num) (by decide +kernel)
      (by decide +kernel))

theorem needed_writes : Needed .writes (GoodProgram true) := by
  have hp : GoodProgram true [46] (toFr [46]) :=
    ⟨by decide, by decide, by decide, by decide⟩
  have hi : GoodInput 8 [] := by unfold GoodInput; decide
  exact needed_sums (mx := mxWrites) .writes (fun _ => fairStarts)
    (toFr [46]) [] [0] hp hi
    (by decide +kernel) (by decide +kernel) (by decide +kernel) (by decide +kernel)
    (by decide +kernel) (by decide +kernel) (fun _ => rfl) (fun _ => rfl) (fun _ => fair_ok _)
    (by sums) (by sums) (by sums)
    (not_prints (n := 20) (out' := [0]) hp hi (by norm_num) (by decide +kernel)
      (by decide +kernel))

theorem spread_val (x : Fin 11 → Fr) (i : Nat) (h : i < 11) : spread x i = x ⟨i, h⟩ := dif_pos h

theorem rare_memProd (l : List Register) (hl : l.length ≤ 512) :
    Rare 512 {x : Fin 11 → Fr | ¬ (l.map (procMemFactor (spread x))).prod ≠ 0} := by
  refine Rare.mono (rare_zero (a := 0) (d := 1) (e := 2) (f := 3)
    ⟨by decide, by decide, by decide, by decide, by decide, by decide⟩
    (l.map fun r => (r.cycle, r.memory_pointer, r.memory_value)) (by rw [List.length_map]; exact hl))
    ?_ (le_refl _)
  intro x hx
  rw [Set.mem_ofPred_eq, not_not] at hx
  refine Eq.trans ?_ hx
  unfold tableProduct
  rw [List.map_map]
  rfl

theorem rare_instProd (l : List Register) (hl : l.length ≤ 512) :
    Rare 512 {x : Fin 11 → Fr | ¬ (l.map (procInstFactor (spread x))).prod ≠ 0} := by
  refine Rare.mono (rare_zero (a := 4) (d := 5) (e := 6) (f := 7)
    ⟨by decide, by decide, by decide, by decide, by decide, by decide⟩
    (l.map fun r => (r.instruction_pointer, r.current_instruction, r.next_instruction))
    (by rw [List.length_map]; exact hl))
    ?_ (le_refl _)
  intro x hx
  rw [Set.mem_ofPred_eq, not_not] at hx
  refine Eq.trans ?_ hx
  unfold tableProduct
  rw [List.map_map]
  rfl

theorem needed_memSameStart : Needed .memSameStart (GoodProgram true) := by
  have hp : GoodProgram true [62, 46] (toFr [62, 46]) :=
    ⟨by decide, by decide, by decide, by decide⟩
  exact needed_general (mx := mxMem) .memSameStart (fun ch => { fairStarts with proc := ⟨(mxMem.memory.map (memFactor ch)).prod *
      ((mxMem.processor.map (procMemFactor ch)).prod)⁻¹, 1, 0, 0⟩ }) (fun ch => (mxMem.processor.map (procMemFactor ch)).prod ≠ 0)
    (toFr [62, 46]) [] [1] hp good_nil
    (by decide +kernel) (by decide +kernel) (by decide +kernel) (by decide +kernel)
    (fun ch hok => (inv_mul_cancel_right₀ hok _).trans (one_mul _).symm)
    (fun ch _ => by rw [inst_product (mx := mxMem) ch (of_decide_eq_true (by decide +kernel))]; rfl)
    (fun ch hok => by
      constructor <;> intro h <;> first | exact absurd rfl h | rfl | exact one_ne_zero)
    (by sums) (by sums) (by sums)
    (rare_memProd _ (by decide))
    (not_prints (n := 20) (out' := [0]) hp good_nil (by norm_num) (by decide +kernel)
      (by decide +kernel))

theorem needed_memNonzeroStart : Needed .memNonzeroStart (GoodProgram true) := by
  have hp : GoodProgram true [62, 46] (toFr [62, 46]) :=
    ⟨by decide, by decide, by decide, by decide⟩
  exact needed_general (mx := mxMem) .memNonzeroStart (fun ch => { fairStarts with proc := ⟨0, 1, 0, 0⟩, mem := 0 }) (fun _ => True)
    (toFr [62, 46]) [] [1] hp good_nil
    (by decide +kernel) (by decide +kernel) (by decide +kernel) (by decide +kernel)
    (fun ch _ => (zero_mul _).trans (zero_mul _).symm)
    (fun ch _ => by rw [inst_product (mx := mxMem) ch (of_decide_eq_true (by decide +kernel))]; rfl)
    (fun ch hok => by
      constructor <;> intro h <;> first | exact absurd rfl h | rfl | exact one_ne_zero)
    (by sums) (by sums) (by sums)
    rare_none
    (not_prints (n := 20) (out' := [0]) hp good_nil (by norm_num) (by decide +kernel)
      (by decide +kernel))

theorem needed_insSameStart : Needed .insSameStart (GoodProgram true) := by
  have hp : GoodProgram true [43, 46] (toFr [43, 46]) :=
    ⟨by decide, by decide, by decide, by decide⟩
  exact needed_general (mx := mxIns) .insSameStart (fun ch => { fairStarts with proc := ⟨1, ((stayRows mxIns.instruction).map (instFactor ch)).prod *
      ((mxIns.processor.map (procInstFactor ch)).prod)⁻¹, 0, 0⟩ }) (fun ch => (mxIns.processor.map (procInstFactor ch)).prod ≠ 0)
    (toFr [43, 46]) [] [0] hp good_nil
    (by decide +kernel) (by decide +kernel) (by decide +kernel) (by decide +kernel)
    (fun ch _ => by rw [mem_product (mx := mxIns) ch (of_decide_eq_true (by decide +kernel))]; rfl)
    (fun ch hok => (inv_mul_cancel_right₀ hok _).trans (one_mul _).symm)
    (fun ch hok => by
      constructor <;> intro h <;> first | exact absurd rfl h | rfl | exact one_ne_zero)
    (by sums) (by sums) (by sums)
    (rare_instProd _ (by decide))
    (not_prints (n := 20) (out' := [1]) hp good_nil (by norm_num) (by decide +kernel)
      (by decide +kernel))

theorem needed_insNonzeroStart : Needed .insNonzeroStart (GoodProgram true) := by
  have hp : GoodProgram true [43, 46] (toFr [43, 46]) :=
    ⟨by decide, by decide, by decide, by decide⟩
  exact needed_general (mx := mxIns) .insNonzeroStart (fun ch => { fairStarts with proc := ⟨1, 0, 0, 0⟩, inst := (0, 0) }) (fun _ => True)
    (toFr [43, 46]) [] [0] hp good_nil
    (by decide +kernel) (by decide +kernel) (by decide +kernel) (by decide +kernel)
    (fun ch _ => by rw [mem_product (mx := mxIns) ch (of_decide_eq_true (by decide +kernel))]; rfl)
    (fun ch _ => (zero_mul _).trans (zero_mul _).symm)
    (fun ch hok => by
      constructor <;> intro h <;> first | exact absurd rfl h | rfl | exact one_ne_zero)
    (by sums) (by sums) (by sums)
    rare_none
    (not_prints (n := 20) (out' := [1]) hp good_nil (by norm_num) (by decide +kernel)
      (by decide +kernel))

end Verif
