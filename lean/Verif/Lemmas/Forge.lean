import Verif.Lemmas.HonestCircuit
import Verif.Spec.Accepts

/-! Accepted assignments built from arbitrary tables (helper for the property theorems). -/

namespace Verif

open Spec

/-- The instruction rows followed by a row with the same instruction pointer, and the last one. -/
def stayRows : List InstrRow → List InstrRow
  | [] => []
  | [a] => [a]
  | a :: b :: l => if b.instruction_pointer = a.instruction_pointer then a :: stayRows (b :: l)
    else stayRows (b :: l)

theorem instAccs_prp {ch : Nat → Fr} : ∀ (rows : List InstrRow) (a : Fr × Fr),
    ∃ e, (a :: instAccs cCfg ch a rows)[rows.length]? =
      some (a.1 * ((stayRows rows).map (instFactor ch)).prod, e) := by
  intro rows
  induction rows with
  | nil => intro a; exact ⟨a.2, by simp [instAccs, stayRows]⟩
  | cons r rows ih =>
    intro a
    rw [instAccs_cons, List.length_cons, List.getElem?_cons_succ]
    obtain ⟨e, he⟩ := ih (instNext ch r (rows.head?.getD r) a)
    refine ⟨e, ?_⟩
    rw [he]
    cases rows with
    | nil => simp [stayRows, instNext, instFactor]
    | cons b l =>
      have e1 : stayRows (r :: b :: l) = if b.instruction_pointer = r.instruction_pointer then
        r :: stayRows (b :: l) else stayRows (b :: l) := rfl
      have hnext : ((b :: l).head?.getD r) = b := rfl
      rw [hnext, e1]
      unfold instNext
      by_cases hb : b.instruction_pointer = r.instruction_pointer
      · rw [if_pos hb, if_pos hb, List.map_cons, List.prod_cons, ← mul_assoc]
        rfl
      · rw [if_neg hb, if_neg hb]

/-- The first-phase advice columns listing given tables. -/
def plainAdvice (mx : Matrix) (vin vcode : List Fr) (c r : Nat) : Fr :=
  if c ≤ 6 then (mx.processor[r]?.map (procCol c)).getD 0
  else if 11 ≤ c ∧ c ≤ 13 then (mx.memory[r]?.map (memCol c)).getD 0
  else if 15 ≤ c ∧ c ≤ 17 then (mx.instruction[r]?.map (instCol c)).getD 0
  else if c = 20 then mx.output[r]?.getD 0
  else if c = 22 then vin[r]?.getD 0
  else if c = 23 then (mx.input.length : Fr)
  else if c = 25 then vcode[r]?.getD 0
  else if c = 26 then (mx.program.length : Fr)
  else 0

/-- The second-phase columns. `e9`, `e10`, `e19` are the values of the last cells of the running
sums in the processor and instruction tables. -/
def runAdvice (mx : Matrix) (ch : Nat → Fr) (st : Starts) (as : List ProcAcc) (vin vcode : List Fr)
    (e9 e10 e19 : Fr) (c r : Nat) : Fr :=
  if c = 14 then ((st.mem :: memAccs cCfg ch st.mem mx.memory)[r]?).getD 0
  else if c = 18 then
    ((st.inst :: instAccs cCfg ch st.inst mx.instruction)[r]?.map Prod.fst).getD 0
  else if c = 19 then if r = mx.instruction.length then e19 else
    ((st.inst :: instAccs cCfg ch st.inst mx.instruction)[r]?.map Prod.snd).getD 0
  else if c = 21 then ((st.out :: rsAccs (ch 9) st.out mx.output)[r]?).getD 0
  else if c = 24 then ((st.inp :: rsAccs (ch 10) st.inp vin)[r]?).getD 0
  else if c = 27 then ((st.prog :: rsAccs (ch 8) st.prog vcode)[r]?).getD 0
  else if c = 9 ∧ r = mx.processor.length then e9
  else if c = 10 ∧ r = mx.processor.length then e10
  else ((st.proc :: as)[r]?.map (procRun c)).getD 0

def isFirst (c : Nat) : Bool :=
  decide (c ≤ 6) || decide (11 ≤ c ∧ c ≤ 13) || decide (15 ≤ c ∧ c ≤ 17) || c == 20 || c == 22 ||
    c == 23 || c == 25 || c == 26

theorem firstPhase_iff {c : Nat} : FirstPhase c → isFirst c = true := by
  intro h
  unfold FirstPhase at h
  have hl : c < 28 := by
    have := lt_of_some h
    have e : mainCS.advicePhase.length = 28 := by decide +kernel
    omega
  have : ∀ c < 28, mainCS.advicePhase[c]? = some 0 → isFirst c = true := by decide +kernel
  exact this c hl h

/-- Tables `mx'` of the right lengths, with locally correct rows and byte values, whose products
agree, can be put into an accepted assignment with the shape of `mx`, against any public inputs of
the right lengths, for any starting values of the running columns. -/
theorem forge {n : Nat} {mx mx' : Matrix} {ch : Nat → Fr} {code input : List Fr} {a : Assembly}
    (st : Starts) (hs : synthesize n mx ch (publicInputs code input) = .ok a)
    (hl : SameShape mx mx') (hcode : mx.program.length = code.length)
    (hinp : mx.input.length = input.length) (hg : GoodRows mx')
    (hb : ∀ r ∈ mx'.processor, r.memory_value.val < 256)
    (hlast : ∀ r, mx'.processor.getLast? = some r → r.current_instruction ≠ frOfByte GETCHAR)
    (hmem : st.proc.memPrp * (mx'.processor.map (procMemFactor ch)).prod =
      st.mem * (mx'.memory.map (memFactor ch)).prod)
    (hinst : st.proc.instPrp * (mx'.processor.map (procInstFactor ch)).prod =
      st.inst.1 * ((stayRows mx'.instruction).map (instFactor ch)).prod) :
    ∃ g as, Accepts n mx (publicInputs code input) g ∧ g.challenge = ch ∧
      (∀ c r, FirstPhase c → g.advice c r = plainAdvice mx' input code c r) ∧
      Cols n mx' ch st as input code g := by
  obtain ⟨g0, hg0⟩ := completion n a ch (publicInputs code input)
  obtain ⟨as0, vin0, vcode0, hf⟩ := filled hs hg0
  obtain ⟨as, has⟩ := procAccs_total (ch := ch) mx'.processor st.proc hlast
  obtain ⟨z, z1, z2, z3⟩ := procAccs_final has
  have hpl := procAccs_len has
  obtain ⟨ie, hie⟩ := instAccs_prp (ch := ch) mx'.instruction st.inst
  -- the values the copy constraints require in the free cells
  obtain ⟨e9, he9⟩ : ∃ e, e = runSum (ch 9) st.out mx'.output := ⟨_, rfl⟩
  obtain ⟨e10, he10⟩ : ∃ e, e = runSum (ch 10) st.inp input := ⟨_, rfl⟩
  obtain ⟨e19, he19⟩ : ∃ e, e = runSum (ch 8) st.prog code := ⟨_, rfl⟩
  let g : Grid := { g0 with
    advice := fun c r => if isFirst c then plainAdvice mx' input code c r
      else runAdvice mx' ch st as input code e9 e10 e19 c r }
  have hF : ∀ c r, isFirst c = true → g.advice c r = plainAdvice mx' input code c r := by
    intro c r h; exact if_pos h
  have hR : ∀ c r, isFirst c = false →
      g.advice c r = runAdvice mx' ch st as input code e9 e10 e19 c r := by
    intro c r h; exact if_neg (by rw [h]; decide)
  have hcols : Cols n mx' ch st as input code g :=
  { roomP := by rw [hl.processor]; exact hf.roomP
    roomM := by rw [hl.memory]; exact hf.roomM
    roomI := by rw [hl.instruction]; exact hf.roomI
    roomO := by rw [hl.output]; exact hf.roomO
    roomN := by rw [hl.input]; exact hf.roomN
    roomG := by rw [hl.program]; exact hf.roomG
    accs := has
    vinLen := by rw [hl.input, hinp]
    vcodeLen := by rw [hl.program, hcode]
    proc := by
      intro c hc r x hx
      have h1 : isFirst c = true := by simp [isFirst, hc]
      rw [hF c r h1]; unfold plainAdvice; rw [if_pos hc, hx]; rfl
    procRun := by
      intro c hc r x hx hr
      have h1 : isFirst c = false := by
        have : c = 7 ∨ c = 8 ∨ c = 9 ∨ c = 10 := by omega
        rcases this with rfl | rfl | rfl | rfl <;> decide
      rw [hR c r h1]; unfold runAdvice
      rw [if_neg (by omega), if_neg (by omega), if_neg (by omega), if_neg (by omega),
        if_neg (by omega), if_neg (by omega), if_neg (by omega), if_neg (by omega), hx]; rfl
    procSel := by
      intro s hs' r; rw [hl.processor]; exact hf.procSel s hs' r
    procStep := by
      intro s hs' r; rw [hl.processor]; exact hf.procStep s hs' r
    procFirst := hf.procFirst
    mem := by
      intro c hc r x hx
      have h1 : isFirst c = true := by simp [isFirst, hc]
      rw [hF c r h1]; unfold plainAdvice
      rw [if_neg (by omega), if_pos hc, hx]; rfl
    memRun := by
      intro r x hx
      rw [hR 14 _ (by decide)]; unfold runAdvice
      rw [if_pos rfl, hx]; rfl
    memSel := by intro r; rw [hl.memory]; exact hf.memSel r
    memStep := by intro r; rw [hl.memory]; exact hf.memStep r
    ins := by
      intro c hc r x hx
      have h1 : isFirst c = true := by simp [isFirst, hc]
      rw [hF c r h1]; unfold plainAdvice
      rw [if_neg (by omega), if_neg (by omega), if_pos hc, hx]; rfl
    insRun := by
      intro r x hx
      constructor
      · rw [hR 18 _ (by decide)]; unfold runAdvice
        rw [if_neg (by decide), if_pos rfl, hx]; rfl
      · intro hr
        rw [hR 19 _ (by decide)]; unfold runAdvice
        rw [if_neg (by decide), if_neg (by decide), if_pos rfl, if_neg (by omega), hx]; rfl
    insStep := by intro s hs' r; rw [hl.instruction]; exact hf.insStep s hs' r
    insAdhoc := by intro r; rw [hl.instruction]; exact hf.insAdhoc r
    out := by
      intro r x hx
      rw [hF 20 _ (by decide)]; unfold plainAdvice
      rw [if_neg (by decide), if_neg (by decide), if_neg (by decide), if_pos rfl, hx]; rfl
    outRun := by
      intro r x hx
      rw [hR 21 _ (by decide)]; unfold runAdvice
      rw [if_neg (by decide), if_neg (by decide), if_neg (by decide), if_pos rfl, hx]; rfl
    outSel := by intro r; rw [hl.output]; exact hf.outSel r
    inp := by
      intro r x hx
      rw [hF 22 _ (by decide)]; unfold plainAdvice
      rw [if_neg (by decide), if_neg (by decide), if_neg (by decide), if_neg (by decide),
        if_pos rfl, hx]; rfl
    inpRun := by
      intro r x hx
      rw [hR 24 _ (by decide)]; unfold runAdvice
      rw [if_neg (by decide), if_neg (by decide), if_neg (by decide), if_neg (by decide),
        if_pos rfl, hx]; rfl
    inpSel := by intro r; rw [hl.input]; exact hf.inpSel r
    prog := by
      intro r x hx
      rw [hF 25 _ (by decide)]; unfold plainAdvice
      rw [if_neg (by decide), if_neg (by decide), if_neg (by decide), if_neg (by decide),
        if_neg (by decide), if_neg (by decide), if_pos rfl, hx]; rfl
    progRun := by
      intro r x hx
      rw [hR 27 _ (by decide)]; unfold runAdvice
      rw [if_neg (by decide), if_neg (by decide), if_neg (by decide), if_neg (by decide),
        if_neg (by decide), if_pos rfl, hx]; rfl
    progSel := by intro r; rw [hl.program]; exact hf.progSel r
    challenge := hg0.challenge }
  have hch : g.challenge = ch := funext hg0.challenge
  have hinst_ : ∀ i r, g.instance_ i r = (publicInputs code input i).getD r 0 := hg0.instance_
  refine ⟨g, as, ⟨a, by rw [hch]; exact hs, hg0.fixed, hg0.selector, hinst_, ?_⟩, hch, ?_, hcols⟩
  · refine ⟨gates_iff.2 (fun row _ => hcols.rules hg row), lookups_iff.2 ?_, ?_⟩
    · rw [mainCS_usable]
      intro row hrow
      have hroom := hf.room
      by_cases hlt : row < mx'.processor.length
      · obtain ⟨r, hr⟩ := some_of_lt hlt
        have hv := hb r (List.mem_of_getElem? hr)
        refine ⟨r.memory_value.val, by omega, ?_⟩
        have hfx : g.fixed 0 r.memory_value.val = _ := hf.fixed _ (by omega)
        rw [hcols.procSel 0 (by omega), decide_eq_true hlt, if_pos rfl, one_mul,
          hcols.proc 5 (by omega) row r hr, hfx, if_pos hv, ZMod.natCast_val, ZMod.cast_id]
        rfl
      · refine ⟨0, by omega, ?_⟩
        have hfx : g.fixed 0 0 = _ := hf.fixed 0 (by omega)
        rw [hcols.procSel 0 (by omega), decide_eq_false hlt, hfx]
        simp
    · rw [synthesize_copies hs]
      have hin : ∀ r, g.instance_ 1 (r + 1) = input.getD r 0 := by
        intro r; rw [hinst_]; rfl
      have hco : ∀ r, g.instance_ 0 (r + 1) = code.getD r 0 := by
        intro r; rw [hinst_]; rfl
      have e7 : g.advice 7 mx.processor.length = st.proc.memPrp * (mx'.processor.map (procMemFactor ch)).prod := by
        rw [← z2, ← hl.processor]
        exact hcols.procRun 7 (by omega) _ z z1 (by omega)
      have e8 : g.advice 8 mx.processor.length = st.proc.instPrp * (mx'.processor.map (procInstFactor ch)).prod := by
        rw [← z3, ← hl.processor]
        exact hcols.procRun 8 (by omega) _ z z1 (by omega)
      have e14 : g.advice 14 mx.memory.length = st.mem * (mx'.memory.map (memFactor ch)).prod := by
        rw [← hl.memory]
        exact hcols.memRun _ _ (memAccs_final _ _)
      have e18 : g.advice 18 mx.instruction.length =
          st.inst.1 * ((stayRows mx'.instruction).map (instFactor ch)).prod := by
        rw [← hl.instruction]
        exact (hcols.insRun _ _ hie).1
      have e9' : g.advice 9 mx.processor.length = e9 := by
        rw [hR 9 _ (by decide)]; unfold runAdvice
        rw [if_neg (by decide), if_neg (by decide), if_neg (by decide), if_neg (by decide),
          if_neg (by decide), if_neg (by decide), if_pos ⟨rfl, hl.processor.symm⟩]
      have e10' : g.advice 10 mx.processor.length = e10 := by
        rw [hR 10 _ (by decide)]; unfold runAdvice
        rw [if_neg (by decide), if_neg (by decide), if_neg (by decide), if_neg (by decide),
          if_neg (by decide), if_neg (by decide), if_neg (by omega),
          if_pos ⟨rfl, hl.processor.symm⟩]
      have e19' : g.advice 19 mx.instruction.length = e19 := by
        rw [hR 19 _ (by decide)]; unfold runAdvice
        rw [if_neg (by decide), if_neg (by decide), if_pos rfl, if_pos hl.instruction.symm]
      intro p hpm
      unfold copyList at hpm
      simp only [List.mem_append, List.mem_map, List.mem_range, List.mem_cons, List.not_mem_nil,
        or_false] at hpm
      rcases hpm with (⟨i, hi', rfl⟩ | ⟨i, hi', rfl⟩) | rfl | rfl | rfl | rfl | rfl | rfl | rfl
      · obtain ⟨x, hx⟩ := some_of_lt (l := input) (i := i) (by omega)
        show g.advice 22 i = g.instance_ 1 (i + 1)
        rw [hcols.inp i x hx, hin, List.getD_eq_getElem?_getD, hx]; rfl
      · obtain ⟨x, hx⟩ := some_of_lt (l := code) (i := i) (by omega)
        show g.advice 25 i = g.instance_ 0 (i + 1)
        rw [hcols.prog i x hx, hco, List.getD_eq_getElem?_getD, hx]; rfl
      · show g.advice 26 0 = g.instance_ 0 0
        rw [hinst_]
        rw [hF 26 _ (by decide)]; unfold plainAdvice
        rw [if_neg (by decide), if_neg (by decide), if_neg (by decide), if_neg (by decide),
          if_neg (by decide), if_neg (by decide), if_neg (by decide), if_pos rfl, hl.program, hcode]; rfl
      · show g.advice 23 0 = g.instance_ 1 0
        rw [hinst_]
        rw [hF 23 _ (by decide)]; unfold plainAdvice
        rw [if_neg (by decide), if_neg (by decide), if_neg (by decide), if_neg (by decide),
          if_neg (by decide), if_pos rfl, hl.input, hinp]; rfl
      · show g.advice 7 _ = g.advice 14 _
        rw [e7, e14, hmem]
      · show g.advice 21 _ = g.advice 9 _
        rw [e9', he9, ← hl.output]
        exact hcols.outRun _ _ (rsAccs_final _ _)
      · show g.advice 24 _ = g.advice 10 _
        rw [e10', he10, hinp]
        exact hcols.inpRun _ _ (rsAccs_final _ _)
      · show g.advice 8 _ = g.advice 18 _
        rw [e8, e18, hinst]
      · show g.advice 27 _ = g.advice 19 _
        rw [e19', he19, hcode]
        exact hcols.progRun _ _ (rsAccs_final _ _)
  · intro c r hc
    exact hF c r (firstPhase_iff hc)

end Verif
