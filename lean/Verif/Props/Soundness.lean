import Verif.Lemmas.ForgeLemmas
import Verif.Props.Circuit

/-! Properties C19–C23: what an accepted assignment means. All five are false of the code; this file
has the refutations. -/

namespace Verif.Props

open BF Spec

set_option synthInstance.maxSize 1000

/-- A finished run of a good program that reads its whole input. -/
structure HonestRun (checks : Bool) (src : List UInt8) (code : List Fr) (input : List Nat) (n : Nat)
    (s : Interp) : Prop where
  good : GoodProgram checks src code
  bytes : GoodInput 8 input
  steps : n ≤ 2 ^ 62
  run : runOn n 8 code input = some (.ok s)
  read : s.input = []

/-- The tables of the run fit into that many rows. -/
def Fits (rows : Nat) (s : Interp) : Prop := 263 ≤ rows ∧ s.matrix.instruction.length + 7 ≤ rows

theorem HonestRun.synth {checks : Bool} {src : List UInt8} {code : List Fr} {input : List Nat}
    {n rows : Nat} {s : Interp} (h : HonestRun checks src code input n s) (hf : Fits rows s)
    (ch : Nat → Fr) : ∃ a, synthesize rows s.matrix ch (publicInputs code (toFr input)) = .ok a := by
  obtain ⟨l1, l2, l3, l4, l5, l6⟩ := honest_lengths h.good h.bytes h.steps h.run
  refine (honest_room h.good h.bytes h.steps h.run rows ch).2 ⟨hf.1, hf.2, ?_⟩
  have := hf.2
  rw [h.read, List.length_nil] at l5
  omega

theorem HonestRun.lens {checks : Bool} {src : List UInt8} {code : List Fr} {input : List Nat}
    {n : Nat} {s : Interp} (h : HonestRun checks src code input n s) :
    s.matrix.program.length = code.length ∧ s.matrix.input.length = (toFr input).length := by
  obtain ⟨l1, l2, l3, l4, l5, l6⟩ := honest_lengths h.good h.bytes h.steps h.run
  rw [h.read, List.length_nil] at l5
  rw [toFr_length]
  exact ⟨l6, by omega⟩

/-! ### C20: the executed program -/

/-- C20, and C19 for the input. Let two programs, each on an input, finish with tables of equal
lengths. With the verifying key and the public program and input of the first, the circuit accepts
the trace of the second program on the second input, for all challenges. -/
theorem C20_forge (checks₁ checks₂ : Bool) (src₁ src₂ : List UInt8) (code₁ code₂ : List Fr)
    (input₁ input₂ : List Nat) (n₁ n₂ rows : Nat) (s₁ s₂ : Interp)
    (h₁ : HonestRun checks₁ src₁ code₁ input₁ n₁ s₁) (h₂ : HonestRun checks₂ src₂ code₂ input₂ n₂ s₂)
    (hf : Fits rows s₁) (hs : SameShape s₁.matrix s₂.matrix) :
    Forgeable rows s₁.matrix code₁ (toFr input₁)
      (Genuine (commands src₂) input₂ s₂.matrix.processor.length) := by
  refine ⟨plainAdvice s₂.matrix (toFr input₁) code₁, fun ch => ?_⟩
  obtain ⟨a, ha⟩ := h₁.synth hf ch
  obtain ⟨m1, m2⟩ := honest_products h₂.good h₂.bytes h₂.steps h₂.run ch
  obtain ⟨g, as, hg, hc, hfp, hcols⟩ := forge honestStarts ha hs h₁.lens.1 h₁.lens.2
    (honest_rows h₂.good h₂.bytes h₂.steps h₂.run) (honest_val h₂.good h₂.bytes h₂.steps h₂.run)
    (honest_lastNe h₂.good h₂.bytes h₂.steps h₂.run) m1 m2
  exact ⟨g, hg, hc, hfp, genuine_of_listed h₂.good h₂.bytes h₂.steps h₂.run hcols.proc⟩

theorem honest_of_map {α : Type} {checks : Bool} {src : List UInt8} {code : List Fr}
    {input : List Nat} {n : Nat} {f : Interp → α} {x : α}
    (hp : GoodProgram checks src code) (hi : GoodInput 8 input) (hn : n ≤ 2 ^ 62)
    (h : (runOn n 8 code input).map (fun r => r.map (fun s => (s.input, f s))) = some (.ok ([], x))) :
    ∃ s, HonestRun checks src code input n s ∧ f s = x := by
  obtain ⟨s, hs, e⟩ := ok_of_map h
  exact ⟨s, ⟨hp, hi, hn, hs, congrArg Prod.fst e⟩, congrArg Prod.snd e⟩

/-- What is needed of concrete runs. -/
def sizes (s : Interp) : Nat × Nat × Nat × List Fr × List Fr :=
  (s.matrix.processor.length, s.matrix.output.length, s.matrix.input.length, s.matrix.output,
    s.matrix.processor.map (·.memory_value))

theorem good_nil : GoodInput 8 [] := by unfold GoodInput; decide

theorem processor_of_mv {s : Interp} {l : List Fr}
    (h : s.matrix.processor.map (·.memory_value) = l) {i : Nat} {v : Fr} (hv : l[i]? = some v) :
    ∃ r, s.matrix.processor[i]? = some r ∧ r.memory_value = v := by
  rw [← h, List.getElem?_map] at hv
  cases e : s.matrix.processor[i]? with
  | none => rw [e] at hv; cases hv
  | some r => rw [e] at hv; exact ⟨r, rfl, by simpa using hv⟩

/-- C20 is false of the code. The public program is `+.`; the accepted trace is that of `-.`
and not one of `+.`. -/
theorem C20_false : ∃ (code : List Fr) (n : Nat) (s : Interp) (rows : Nat),
    HonestRun true [43, 46] code [] n s ∧ Fits rows s ∧
    Forgeable rows s.matrix code [] (fun g =>
      Genuine (commands [45, 46]) [] s.matrix.processor.length g ∧
      ¬ Genuine (commands [43, 46]) [] s.matrix.processor.length g) := by
  obtain ⟨s₁, h₁, e₁⟩ := honest_of_map (checks := true) (src := [43, 46]) (code := toFr [43, 46])
    (n := 10) (f := sizes) (x := (3, 1, 0, [1], [0, 1, 1]))
    ⟨by decide, by decide, by decide, by decide⟩ good_nil (by norm_num) (by decide +kernel)
  obtain ⟨s₂, h₂, e₂⟩ := honest_of_map (checks := true) (src := [45, 46]) (code := toFr [45, 46])
    (n := 10) (f := sizes) (x := (3, 1, 0, [255], [0, 255, 255]))
    ⟨by decide, by decide, by decide, by decide⟩ good_nil (by norm_num) (by decide +kernel)
  simp only [sizes, Prod.mk.injEq] at e₁ e₂
  obtain ⟨p1, o1, i1, -, v1⟩ := e₁
  obtain ⟨p2, o2, i2, -, v2⟩ := e₂
  obtain ⟨a1, a2, -, -, -, a6⟩ := honest_lengths h₁.good h₁.bytes h₁.steps h₁.run
  obtain ⟨b1, b2, -, -, -, b6⟩ := honest_lengths h₂.good h₂.bytes h₂.steps h₂.run
  have hshape : SameShape s₁.matrix s₂.matrix :=
    ⟨by rw [p1, p2], by rw [a2, b2, p1, p2], by rw [a1, b1, p1, p2]; rfl, by rw [o1, o2],
      by rw [i1, i2], by rw [a6, b6]; rfl⟩
  have hfit : Fits 512 s₁ := ⟨by norm_num, by rw [a1, p1]; decide⟩
  refine ⟨_, 10, s₁, 512, h₁, hfit, ?_⟩
  obtain ⟨adv, hadv⟩ := C20_forge true true _ _ _ _ _ _ _ _ 512 s₁ s₂ h₁ h₂ hfit hshape
  refine ⟨adv, fun ch => ?_⟩
  obtain ⟨g, g1, g2, g3, g4⟩ := hadv ch
  refine ⟨g, g1, g2, g3, by rw [p1, ← p2]; exact g4, fun hgen => ?_⟩
  obtain ⟨r1, hr1, e1⟩ := processor_of_mv v1 (i := 1) rfl
  obtain ⟨r2, hr2, e2⟩ := processor_of_mv v2 (i := 1) rfl
  have q1 := (genuine_mv h₁.good h₁.bytes h₁.steps h₁.run hgen (by rw [p1]; omega) hr1).1
  have q2 := (genuine_mv h₂.good h₂.bytes h₂.steps h₂.run g4 (by rw [p2]; omega) hr2).1
  rw [q1, e1, e2] at q2
  exact absurd q2 (by decide +kernel)

/-! ### C19: genuine traces -/

/-- C19 is false of the code, for the input: program `,.`, public input 1; the accepted trace is
that of the same program on input 2. -/
theorem C19_false_input : ∃ (code : List Fr) (n : Nat) (s : Interp) (rows : Nat),
    HonestRun true [44, 46] code [1] n s ∧ Fits rows s ∧
    Forgeable rows s.matrix code (toFr [1]) (fun g =>
      Genuine (commands [44, 46]) [2] s.matrix.processor.length g ∧
      ¬ Genuine (commands [44, 46]) [1] s.matrix.processor.length g) := by
  have hp : GoodProgram true [44, 46] (toFr [44, 46]) := ⟨by decide, by decide, by decide, by decide⟩
  obtain ⟨s₁, h₁, e₁⟩ := honest_of_map (input := [1])
    (n := 10) (f := sizes) (x := (3, 1, 1, [1], [0, 1, 1]))
    hp (by unfold GoodInput; decide) (by norm_num) (by decide +kernel)
  obtain ⟨s₂, h₂, e₂⟩ := honest_of_map (input := [2])
    (n := 10) (f := sizes) (x := (3, 1, 1, [2], [0, 2, 2]))
    hp (by unfold GoodInput; decide) (by norm_num) (by decide +kernel)
  simp only [sizes, Prod.mk.injEq] at e₁ e₂
  obtain ⟨p1, o1, i1, -, v1⟩ := e₁
  obtain ⟨p2, o2, i2, -, v2⟩ := e₂
  obtain ⟨a1, a2, -, -, -, a6⟩ := honest_lengths h₁.good h₁.bytes h₁.steps h₁.run
  obtain ⟨b1, b2, -, -, -, b6⟩ := honest_lengths h₂.good h₂.bytes h₂.steps h₂.run
  have hshape : SameShape s₁.matrix s₂.matrix :=
    ⟨by rw [p1, p2], by rw [a2, b2, p1, p2], by rw [a1, b1, p1, p2], by rw [o1, o2],
      by rw [i1, i2], by rw [a6, b6]⟩
  have hfit : Fits 512 s₁ := ⟨by norm_num, by rw [a1, p1]; decide⟩
  refine ⟨_, 10, s₁, 512, h₁, hfit, ?_⟩
  obtain ⟨adv, hadv⟩ := C20_forge true true _ _ _ _ _ _ _ _ 512 s₁ s₂ h₁ h₂ hfit hshape
  refine ⟨adv, fun ch => ?_⟩
  obtain ⟨g, g1, g2, g3, g4⟩ := hadv ch
  refine ⟨g, g1, g2, g3, by rw [p1, ← p2]; exact g4, fun hgen => ?_⟩
  obtain ⟨r1, hr1, e1⟩ := processor_of_mv v1 (i := 1) rfl
  obtain ⟨r2, hr2, e2⟩ := processor_of_mv v2 (i := 1) rfl
  have q1 := (genuine_mv h₁.good h₁.bytes h₁.steps h₁.run hgen (by rw [p1]; omega) hr1).1
  have q2 := (genuine_mv h₂.good h₂.bytes h₂.steps h₂.run g4 (by rw [p2]; omega) hr2).1
  rw [q1, e1, e2] at q2
  exact absurd q2 (by decide +kernel)

/-- The general attack with given tables: tables of the right lengths that satisfy the local row
conditions are accepted, if their products agree or the running products start from 0. -/
theorem forge_tables {checks : Bool} {src : List UInt8} {code : List Fr} {input : List Nat}
    {n rows : Nat} {s : Interp} (h : HonestRun checks src code input n s) (hf : Fits rows s)
    (mx : Matrix) (st : Starts) (hs : SameShape s.matrix mx) (hg : goodRows mx = true)
    (hlast : ∀ r, mx.processor.getLast? = some r → r.current_instruction ≠ frOfByte GETCHAR)
    (hmem : st.proc.memPrp = st.mem ∧ (st.mem = 0 ∨
      mx.memory.Perm (mx.processor.map MemRow.ofRegister)))
    (hinst : st.proc.instPrp = st.inst.1 ∧ (st.inst.1 = 0 ∨
      (stayRows mx.instruction).Perm (mx.processor.map InstrRow.ofRegister))) :
    Forgeable rows s.matrix code (toFr input) (fun g =>
      ∃ ch as, Cols rows mx ch st as (toFr input) code g) := by
  refine ⟨plainAdvice mx (toFr input) code, fun ch => ?_⟩
  obtain ⟨a, ha⟩ := h.synth hf ch
  obtain ⟨g1, g2⟩ := goodRows_sound hg
  obtain ⟨g, as, hg, hc, hfp, hcols⟩ := forge st ha hs h.lens.1 h.lens.2 g1 g2 hlast
    (by
      rw [hmem.1]
      rcases hmem.2 with e | e
      · rw [e]; ring
      · rw [mem_product ch e])
    (by
      rw [hinst.1]
      rcases hinst.2 with e | e
      · rw [e]; ring
      · rw [inst_product ch e])
  exact ⟨g, hg, hc, hfp, ch, as, hcols⟩

/-- Tables of a forged run of `+><.`: after `+`, the pointer leaves cell 0 and comes back, and
cell 0 is 0 again. In the memory table the rows of cell 0 are listed out of order. -/
def forgedMemory : Matrix where
  processor :=
    [{ cycle := 0, instruction_pointer := 0, current_instruction := 43, next_instruction := 62 },
     { cycle := 1, instruction_pointer := 1, current_instruction := 62, next_instruction := 60,
       memory_value := 1, memory_value_inverse := 1 },
     { cycle := 2, instruction_pointer := 2, current_instruction := 60, next_instruction := 46,
       memory_pointer := 1 },
     { cycle := 3, instruction_pointer := 3, current_instruction := 46 },
     { cycle := 4, instruction_pointer := 4 }]
  memory :=
    [⟨3, 0, 0, 0⟩, ⟨4, 0, 0, 0⟩, ⟨0, 0, 0, 0⟩, ⟨1, 0, 1, 0⟩,
     ⟨2, 1, 0, 0⟩]
  instruction := [⟨0, 43, 62⟩, ⟨0, 43, 62⟩, ⟨1, 62, 60⟩, ⟨1, 62, 60⟩, ⟨2, 60, 46⟩, ⟨2, 60, 46⟩,
    ⟨3, 46, 0⟩, ⟨3, 46, 0⟩, ⟨4, 0, 0⟩]
  output := [0]
  input := []
  program := toFr [43, 62, 60, 46]

/-- C19 is false of the code, for the memory: program `+><.` without input prints 1; the circuit
accepts a trace where it prints 0, with the honest starting values of all running columns. -/
theorem C19_false : ∃ (code : List Fr) (n : Nat) (s : Interp) (rows : Nat),
    HonestRun true [43, 62, 60, 46] code [] n s ∧ Fits rows s ∧ s.matrix.output = [1] ∧
    Forgeable rows s.matrix code [] (fun g =>
      ¬ Genuine (commands [43, 62, 60, 46]) [] s.matrix.processor.length g ∧
      outputOf g s.matrix.output.length = [0]) := by
  obtain ⟨s, h, e⟩ := honest_of_map (checks := true) (src := [43, 62, 60, 46])
    (code := toFr [43, 62, 60, 46])
    (n := 10) (f := sizes) (x := (5, 1, 0, [1], [0, 1, 0, 1, 1]))
    ⟨by decide, by decide, by decide, by decide⟩ good_nil (by norm_num) (by decide +kernel)
  simp only [sizes, Prod.mk.injEq] at e
  obtain ⟨p1, o1, i1, out1, v1⟩ := e
  obtain ⟨a1, a2, -, -, -, a6⟩ := honest_lengths h.good h.bytes h.steps h.run
  have hshape : SameShape s.matrix forgedMemory :=
    ⟨by rw [p1]; rfl, by rw [a2, p1]; rfl, by rw [a1, p1]; rfl, by rw [o1]; rfl,
      by rw [i1]; rfl, by rw [a6]; rfl⟩
  have hfit : Fits 512 s := ⟨by norm_num, by rw [a1, p1]; decide⟩
  refine ⟨_, 10, s, 512, h, hfit, out1, ?_⟩
  obtain ⟨adv, hadv⟩ := forge_tables h hfit forgedMemory honestStarts hshape (by decide +kernel)
    (by decide +kernel) ⟨rfl, Or.inr (by decide +kernel)⟩ ⟨rfl, Or.inr (by decide +kernel)⟩
  refine ⟨adv, fun ch => ?_⟩
  obtain ⟨g, g1, g2, g3, ch', as, hcols⟩ := hadv ch
  refine ⟨g, g1, g2, g3, fun hgen => ?_, ?_⟩
  · obtain ⟨r1, hr1, e1⟩ := processor_of_mv v1 (i := 3) rfl
    have q1 := (genuine_mv h.good h.bytes h.steps h.run hgen (by rw [p1]; omega) hr1).1
    rw [hcols.proc 5 (by omega) 3 _ rfl, e1] at q1
    exact absurd q1 (by decide +kernel)
  · rw [o1]
    show [g.advice 20 0] = [0]
    rw [hcols.out 0 0 rfl]

/-! ### C21: the starting values -/

/-- C21. With running products that start from 0, the memory table and the instruction table need
have nothing to do with the processor table: any tables of the right lengths with locally correct
rows are accepted. -/
theorem C21_forge (checks : Bool) (src : List UInt8) (code : List Fr) (input : List Nat)
    (n rows : Nat) (s : Interp) (h : HonestRun checks src code input n s) (hf : Fits rows s)
    (mx : Matrix) (hs : SameShape s.matrix mx) (hg : goodRows mx = true)
    (hlast : ∀ r, mx.processor.getLast? = some r → r.current_instruction ≠ frOfByte GETCHAR) :
    Forgeable rows s.matrix code (toFr input) (fun g =>
      g.advice mainConfig.p.memPrp 0 = 0 ∧ g.advice mainConfig.m.prp 0 = 0 ∧
      g.advice mainConfig.p.instPrp 0 = 0 ∧ g.advice mainConfig.i.prp 0 = 0 ∧
      (∀ (i : Nat) r, mx.processor[i]? = some r →
        row g i = ⟨r.cycle, r.instruction_pointer, r.current_instruction, r.next_instruction,
          r.memory_pointer, r.memory_value⟩)) := by
  obtain ⟨adv, hadv⟩ := forge_tables h hf mx ⟨⟨0, 0, 0, 0⟩, 0, (0, 0), 0, 0, 0⟩ hs hg hlast
    ⟨rfl, Or.inl rfl⟩ ⟨rfl, Or.inl rfl⟩
  refine ⟨adv, fun ch => ?_⟩
  obtain ⟨g, g1, g2, g3, ch', as, hcols⟩ := hadv ch
  refine ⟨g, g1, g2, g3, ?_, ?_, ?_, ?_, ?_⟩
  · exact hcols.procRun 7 (by omega) 0 _ rfl (by omega)
  · exact hcols.memRun 0 _ rfl
  · exact hcols.procRun 8 (by omega) 0 _ rfl (by omega)
  · exact (hcols.insRun 0 _ rfl).1
  · intro i r hr
    unfold row
    rw [show g.advice mainConfig.p.clk i = r.cycle from hcols.proc 0 (by omega) i r hr,
      show g.advice mainConfig.p.ip i = r.instruction_pointer from hcols.proc 2 (by omega) i r hr,
      show g.advice mainConfig.p.ci i = r.current_instruction from hcols.proc 1 (by omega) i r hr,
      show g.advice mainConfig.p.ni i = r.next_instruction from hcols.proc 3 (by omega) i r hr,
      show g.advice mainConfig.p.mp i = r.memory_pointer from hcols.proc 4 (by omega) i r hr,
      show g.advice mainConfig.p.mv i = r.memory_value from hcols.proc 5 (by omega) i r hr]

/-- C21 is false of the code: program `+`, with tables whose memory table does not mention the
value 1 that the processor table has, is accepted with running products starting from 0 instead of
3 and 9. -/
theorem C21_false : ∃ (code : List Fr) (n : Nat) (s : Interp) (rows : Nat),
    HonestRun true [43] code [] n s ∧ Fits rows s ∧
    Forgeable rows s.matrix code [] (fun g =>
      g.advice mainConfig.p.memPrp 0 = 0 ∧ g.advice mainConfig.m.prp 0 = 0 ∧
      g.advice mainConfig.p.instPrp 0 = 0 ∧ g.advice mainConfig.i.prp 0 = 0 ∧
      (row g 1).mv = 1) := by
  obtain ⟨s, h, e⟩ := honest_of_map (checks := true) (src := [43])
    (code := toFr [43]) (n := 10) (f := sizes) (x := (2, 0, 0, [], [0, 1]))
    ⟨by decide, by decide, by decide, by decide⟩ good_nil (by norm_num) (by decide +kernel)
  simp only [sizes, Prod.mk.injEq] at e
  obtain ⟨p1, o1, i1, -, v1⟩ := e
  obtain ⟨a1, a2, -, -, -, a6⟩ := honest_lengths h.good h.bytes h.steps h.run
  let mx : Matrix := {
    processor := [{ current_instruction := 43 },
      { cycle := 1, instruction_pointer := 1, memory_value := 1, memory_value_inverse := 1 }]
    memory := [⟨7, 0, 0, 0⟩, ⟨7, 0, 0, 0⟩]
    instruction := [⟨5, 0, 0⟩, ⟨5, 0, 0⟩, ⟨5, 0, 0⟩]
    output := [], input := [], program := toFr [43] }
  have hshape : SameShape s.matrix mx :=
    ⟨by rw [p1]; rfl, by rw [a2, p1]; rfl, by rw [a1, p1]; rfl, by rw [o1]; rfl,
      by rw [i1]; rfl, by rw [a6]⟩
  have hfit : Fits 512 s := ⟨by norm_num, by rw [a1, p1]; decide⟩
  refine ⟨_, 10, s, 512, h, hfit, ?_⟩
  obtain ⟨adv, hadv⟩ := C21_forge _ _ _ _ _ _ _ h hfit mx hshape (by decide +kernel)
    (by decide +kernel)
  refine ⟨adv, fun ch => ?_⟩
  obtain ⟨g, g1, g2, g3, k1, k2, k3, k4, k5⟩ := hadv ch
  exact ⟨g, g1, g2, g3, k1, k2, k3, k4, by rw [k5 1 _ rfl]⟩

/-! ### C22: the last row -/

/-- Tables of an unfinished run of `+[]` (which never halts) with the lengths of a run of
`+++++`. -/
def unfinished : Matrix where
  processor :=
    [{ cycle := 0, instruction_pointer := 0, current_instruction := 43, next_instruction := 91 },
     { cycle := 1, instruction_pointer := 1, current_instruction := 91, next_instruction := 5,
       memory_value := 1, memory_value_inverse := 1 },
     { cycle := 2, instruction_pointer := 3, current_instruction := 93, next_instruction := 3,
       memory_value := 1, memory_value_inverse := 1 },
     { cycle := 3, instruction_pointer := 3, current_instruction := 93, next_instruction := 3,
       memory_value := 1, memory_value_inverse := 1 },
     { cycle := 4, instruction_pointer := 3, current_instruction := 93, next_instruction := 3,
       memory_value := 1, memory_value_inverse := 1 },
     { cycle := 5, instruction_pointer := 3, current_instruction := 93, next_instruction := 3,
       memory_value := 1, memory_value_inverse := 1 }]
  memory := [⟨0, 0, 0, 0⟩, ⟨1, 0, 1, 0⟩, ⟨2, 0, 1, 0⟩,
    ⟨3, 0, 1, 0⟩, ⟨4, 0, 1, 0⟩,
    ⟨5, 0, 1, 0⟩]
  instruction := [⟨-2, 0, 0⟩, ⟨-1, 0, 0⟩, ⟨0, 43, 91⟩, ⟨0, 43, 91⟩, ⟨1, 91, 5⟩, ⟨1, 91, 5⟩,
    ⟨2, 5, 93⟩, ⟨3, 93, 3⟩, ⟨3, 93, 3⟩, ⟨3, 93, 3⟩, ⟨3, 93, 3⟩]
  output := []
  input := []
  program := toFr [43, 43, 43, 43, 43]

/-- C22 is false of the code: the public program is `+++++`; the circuit accepts a trace (of the
endless program `+[]`) whose last row is not at the program length. The running columns have their
honest starting values. -/
theorem C22_false : ∃ (code : List Fr) (n : Nat) (s : Interp) (rows : Nat),
    HonestRun true [43, 43, 43, 43, 43] code [] n s ∧ Fits rows s ∧
    Forgeable rows s.matrix code [] (fun g =>
      (row g (s.matrix.processor.length - 1)).ip ≠ (code.length : Fr)) := by
  obtain ⟨s, h, e⟩ := honest_of_map (checks := true) (src := [43, 43, 43, 43, 43])
    (code := toFr [43, 43, 43, 43, 43]) (n := 10) (f := sizes)
    (x := (6, 0, 0, [], [0, 1, 2, 3, 4, 5]))
    ⟨by decide, by decide, by decide, by decide⟩ good_nil (by norm_num) (by decide +kernel)
  simp only [sizes, Prod.mk.injEq] at e
  obtain ⟨p1, o1, i1, -, v1⟩ := e
  obtain ⟨a1, a2, -, -, -, a6⟩ := honest_lengths h.good h.bytes h.steps h.run
  have hshape : SameShape s.matrix unfinished :=
    ⟨by rw [p1]; rfl, by rw [a2, p1]; rfl, by rw [a1, p1]; rfl, by rw [o1]; rfl,
      by rw [i1]; rfl, by rw [a6]; rfl⟩
  have hfit : Fits 512 s := ⟨by norm_num, by rw [a1, p1]; decide⟩
  refine ⟨_, 10, s, 512, h, hfit, ?_⟩
  obtain ⟨adv, hadv⟩ := forge_tables h hfit unfinished honestStarts hshape (by decide +kernel)
    (by decide +kernel) ⟨rfl, Or.inr (by decide +kernel)⟩ ⟨rfl, Or.inr (by decide +kernel)⟩
  refine ⟨adv, fun ch => ?_⟩
  obtain ⟨g, g1, g2, g3, ch', as, hcols⟩ := hadv ch
  refine ⟨g, g1, g2, g3, ?_⟩
  rw [p1]
  show g.advice 2 5 ≠ _
  rw [hcols.proc 2 (by omega) 5 _ rfl]
  decide +kernel

/-! ### C23: the output -/

/-- C23. The output table is not tied to the run at all: for every finished run, every list of field
elements of the right length is accepted as its output, for all challenges, with a genuine
processor table. -/
theorem C23_forge (checks : Bool) (src : List UInt8) (code : List Fr) (input : List Nat)
    (n rows : Nat) (s : Interp) (h : HonestRun checks src code input n s) (hf : Fits rows s)
    (out : List Fr) (hl : out.length = s.matrix.output.length) :
    Forgeable rows s.matrix code (toFr input) (fun g => outputOf g out.length = out ∧
      Genuine (commands src) input s.matrix.processor.length g) := by
  refine ⟨plainAdvice { s.matrix with output := out } (toFr input) code, fun ch => ?_⟩
  obtain ⟨a, ha⟩ := h.synth hf ch
  obtain ⟨m1, m2⟩ := honest_products h.good h.bytes h.steps h.run ch
  have hg := honest_rows h.good h.bytes h.steps h.run
  obtain ⟨g, as, hg, hc, hfp, hcols⟩ := forge (mx' := { s.matrix with output := out })
    honestStarts ha ⟨rfl, rfl, rfl, hl, rfl, rfl⟩ h.lens.1 h.lens.2
    ⟨hg.first, hg.inv, hg.step, hg.mem, hg.ins, hg.insNe⟩
    (honest_val h.good h.bytes h.steps h.run) (honest_lastNe h.good h.bytes h.steps h.run) m1 m2
  refine ⟨g, hg, hc, hfp, ?_, genuine_of_listed h.good h.bytes h.steps h.run hcols.proc⟩
  unfold outputOf
  apply List.ext_getElem
  · simp
  · intro i h1 h2
    rw [List.getElem_map, List.getElem_range]
    exact hcols.out i _ (List.getElem?_eq_getElem h2)

/-- C23 is false of the code: for program `+.` (which prints 1), two accepted assignments for the
same verifying key and the same public inputs carry the outputs 1 and 77, for all challenges. -/
theorem C23_false : ∃ (code : List Fr) (n : Nat) (s : Interp) (rows : Nat),
    HonestRun true [43, 46] code [] n s ∧ Fits rows s ∧ s.matrix.output = [1] ∧
    Forgeable rows s.matrix code [] (fun g => outputOf g 1 = [1]) ∧
    Forgeable rows s.matrix code [] (fun g => outputOf g 1 = [77]) := by
  obtain ⟨s, h, e⟩ := honest_of_map (checks := true) (src := [43, 46]) (code := toFr [43, 46])
    (n := 10) (f := sizes) (x := (3, 1, 0, [1], [0, 1, 1]))
    ⟨by decide, by decide, by decide, by decide⟩ good_nil (by norm_num) (by decide +kernel)
  simp only [sizes, Prod.mk.injEq] at e
  obtain ⟨p1, o1, i1, out1, v1⟩ := e
  obtain ⟨a1, a2, -, -, -, a6⟩ := honest_lengths h.good h.bytes h.steps h.run
  have hfit : Fits 512 s := ⟨by norm_num, by rw [a1, p1]; decide⟩
  refine ⟨_, 10, s, 512, h, hfit, out1, ?_, ?_⟩
  · obtain ⟨adv, hadv⟩ := C23_forge _ _ _ _ _ 512 s h hfit [1] (by rw [o1]; rfl)
    refine ⟨adv, fun ch => ?_⟩
    obtain ⟨g, g1, g2, g3, g4, -⟩ := hadv ch
    exact ⟨g, g1, g2, g3, g4⟩
  · obtain ⟨adv, hadv⟩ := C23_forge _ _ _ _ _ 512 s h hfit [77] (by rw [o1]; rfl)
    refine ⟨adv, fun ch => ?_⟩
    obtain ⟨g, g1, g2, g3, g4, -⟩ := hadv ch
    exact ⟨g, g1, g2, g3, g4⟩

#print axioms C19_false
#print axioms C19_false_input
#print axioms C20_forge
#print axioms C20_false
#print axioms C21_forge
#print axioms C21_false
#print axioms C22_false
#print axioms C23_forge
#print axioms C23_false

end Verif.Props
