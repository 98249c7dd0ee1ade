import Verif.Lemmas.Filled

/-! The running columns: step equations and the gates they satisfy. -/

namespace Verif

theorem factor_eq (ch : Nat → Fr) (c : Nat × Nat × Nat × Nat) (x y z : Fr) :
    factor ch c x y z = prpFactor ch c x y z := rfl

theorem procAccs_step {ch : Nat → Fr} : ∀ {rows : List Register} {a : ProcAcc} {as : List ProcAcc},
    procAccs cCfg ch a rows = .ok as → ∀ (i : Nat) r, rows[i]? = some r →
      ∃ x y, (a :: as)[i]? = some x ∧ (a :: as)[i + 1]? = some y ∧
        x.next cCfg ch r rows[i + 1]? = .ok y := by
  intro rows
  induction rows with
  | nil => intro a as _ i r hr; simp at hr
  | cons q rows ih =>
    intro a as h i r hr
    unfold procAccs at h
    rw [bind_ok] at h
    obtain ⟨a', ha', h⟩ := h
    rw [bind_ok] at h
    obtain ⟨as', has, h⟩ := h
    cases h
    cases i with
    | zero =>
      simp only [List.getElem?_cons_zero, Option.some.injEq] at hr
      subst hr
      refine ⟨a, a', rfl, rfl, ?_⟩
      rw [← ha', List.getElem?_cons_succ, List.head?_eq_getElem?]
    | succ i =>
      rw [List.getElem?_cons_succ] at hr
      obtain ⟨x, y, h1, h2, h3⟩ := ih has i r hr
      exact ⟨x, y, by rw [List.getElem?_cons_succ]; exact h1,
        by rw [List.getElem?_cons_succ]; exact h2, by rw [List.getElem?_cons_succ]; exact h3⟩

theorem ProcAcc.next_ok {cfg : BFChallenge} {ch : Nat → Fr} {x y : ProcAcc} {r : Register}
    {o : Option Register} (h : x.next cfg ch r o = .ok y) :
    y.memPrp = x.memPrp * prpFactor ch cfg.mem r.cycle r.memory_pointer r.memory_value ∧
    y.instPrp = x.instPrp * prpFactor ch cfg.inst r.instruction_pointer r.current_instruction
      r.next_instruction ∧
    y.outputRs = (if r.current_instruction = frOfByte PUTCHAR then
      x.outputRs * ch cfg.outputRs + r.memory_value else x.outputRs) ∧
    (r.current_instruction = frOfByte GETCHAR → ∃ r', o = some r' ∧
      y.inputRs = x.inputRs * ch cfg.inputRs + r'.memory_value) ∧
    (r.current_instruction ≠ frOfByte GETCHAR → y.inputRs = x.inputRs) := by
  unfold ProcAcc.next at h
  simp only at h
  by_cases hg : r.current_instruction = frOfByte GETCHAR
  · rw [if_pos hg] at h
    cases o with
    | none => cases h
    | some r' =>
      cases h
      exact ⟨rfl, rfl, rfl, fun _ => ⟨r', rfl, rfl⟩, fun hn => absurd hg hn⟩
  · rw [if_neg hg] at h
    cases h
    exact ⟨rfl, rfl, rfl, fun h => absurd h hg, fun _ => rfl⟩

theorem memAccs_step {ch : Nat → Fr} : ∀ (rows : List MemRow) (a : Fr) (i : Nat) (r : MemRow),
    rows[i]? = some r → ∃ x, (a :: memAccs cCfg ch a rows)[i]? = some x ∧
      (a :: memAccs cCfg ch a rows)[i + 1]? =
        some (x * prpFactor ch cCfg.mem r.cycle r.memory_pointer r.memory_value) := by
  intro rows
  induction rows with
  | nil => intro a i r hr; simp at hr
  | cons q rows ih =>
    intro a i r hr
    cases i with
    | zero =>
      simp only [List.getElem?_cons_zero, Option.some.injEq] at hr
      subst hr
      exact ⟨a, rfl, rfl⟩
    | succ i =>
      rw [List.getElem?_cons_succ] at hr
      obtain ⟨x, h1, h2⟩ := ih (a * prpFactor ch cCfg.mem q.cycle q.memory_pointer q.memory_value) i r hr
      exact ⟨x, by rw [List.getElem?_cons_succ]; exact h1, by rw [List.getElem?_cons_succ]; exact h2⟩

/-- One step of the instruction table's running values. -/
def instNext (ch : Nat → Fr) (r r' : InstrRow) (x : Fr × Fr) : Fr × Fr :=
  if r'.instruction_pointer = r.instruction_pointer then
    (x.1 * prpFactor ch cCfg.inst r.instruction_pointer r.current_instruction r.next_instruction, x.2)
  else (x.1, ch cCfg.instRs * x.2 + r.current_instruction)

theorem instAccs_cons (ch : Nat → Fr) (a : Fr × Fr) (r : InstrRow) (rest : List InstrRow) :
    instAccs cCfg ch a (r :: rest) = instNext ch r (rest.head?.getD r) a ::
      instAccs cCfg ch (instNext ch r (rest.head?.getD r) a) rest := rfl

theorem instAccs_step {ch : Nat → Fr} : ∀ (rows : List InstrRow) (a : Fr × Fr) (i : Nat) (r : InstrRow),
    rows[i]? = some r → ∃ x, (a :: instAccs cCfg ch a rows)[i]? = some x ∧
      (a :: instAccs cCfg ch a rows)[i + 1]? = some (instNext ch r (rows[i + 1]?.getD r) x) := by
  intro rows
  induction rows with
  | nil => intro a i r hr; simp at hr
  | cons q rows ih =>
    intro a i r hr
    cases i with
    | zero =>
      simp only [List.getElem?_cons_zero, Option.some.injEq] at hr
      subst hr
      refine ⟨a, rfl, ?_⟩
      rw [List.getElem?_cons_succ, instAccs_cons, List.getElem?_cons_zero, List.getElem?_cons_succ,
        List.head?_eq_getElem?]
    | succ i =>
      rw [List.getElem?_cons_succ] at hr
      obtain ⟨x, h1, h2⟩ := ih (instNext ch q (rows.head?.getD q) a) i r hr
      refine ⟨x, by rw [List.getElem?_cons_succ]; exact h1, ?_⟩
      rw [List.getElem?_cons_succ, List.getElem?_cons_succ (l := rows)]
      exact h2

theorem rsAccs_step {gamma : Fr} : ∀ (vals : List Fr) (a : Fr) (i : Nat) (v : Fr),
    vals[i]? = some v → ∃ x, (a :: rsAccs gamma a vals)[i]? = some x ∧
      (a :: rsAccs gamma a vals)[i + 1]? = some (gamma * x + v) := by
  intro vals
  induction vals with
  | nil => intro a i r hr; simp at hr
  | cons q vals ih =>
    intro a i r hr
    cases i with
    | zero =>
      simp only [List.getElem?_cons_zero, Option.some.injEq] at hr
      subst hr
      exact ⟨a, rfl, rfl⟩
    | succ i =>
      rw [List.getElem?_cons_succ] at hr
      obtain ⟨x, h1, h2⟩ := ih (gamma * a + q) i r hr
      exact ⟨x, by rw [List.getElem?_cons_succ]; exact h1, by rw [List.getElem?_cons_succ]; exact h2⟩

/-- What the gates need of the trace tables. -/
structure GoodRows (mx : Matrix) : Prop where
  first : ∃ r, mx.processor[0]? = some r ∧ r.cycle = 0 ∧ r.instruction_pointer = 0 ∧
    r.memory_pointer = 0 ∧ r.memory_value = 0
  inv : ∀ r ∈ mx.processor,
    r.memory_value * (r.memory_value * r.memory_value_inverse - 1) = 0 ∧
    r.memory_value_inverse * (r.memory_value * r.memory_value_inverse - 1) = 0
  step : ∀ (i : Nat) r r', mx.processor[i]? = some r → mx.processor[i + 1]? = some r' →
    ∃ op ∈ OPCODES, r.current_instruction = frOfByte op ∧ r'.cycle = r.cycle + 1 ∧
      polyP1 (frOfByte op) r.instruction_pointer r'.instruction_pointer r.memory_value
        r.memory_value_inverse r.next_instruction = 0 ∧
      polyP2 (frOfByte op) r.memory_pointer r'.memory_pointer = 0 ∧
      polyP3 256 (frOfByte op) r.memory_value r'.memory_value = 0
  mem : ∀ (i : Nat) r r', mx.memory[i]? = some r → mx.memory[i + 1]? = some r' →
    (r'.memory_pointer = r.memory_pointer ∧
      (r'.cycle ≠ r.cycle + 1 → r'.memory_value = r.memory_value)) ∨
    (r'.memory_pointer = r.memory_pointer + 1 ∧ r'.memory_value = 0)
  ins : ∀ (i : Nat) r r', mx.instruction[i]? = some r → mx.instruction[i + 1]? = some r' →
    r' = r ∨ r'.instruction_pointer = r.instruction_pointer + 1
  insNe : mx.instruction ≠ []

theorem some_of_lt {α : Type} {l : List α} {i : Nat} (h : i < l.length) : ∃ x, l[i]? = some x :=
  ⟨_, List.getElem?_eq_getElem h⟩

/-- Where the running columns start. -/
structure Starts where
  proc : ProcAcc
  mem : Fr
  inst : Fr × Fr
  out : Fr
  inp : Fr
  prog : Fr

/-- Columns listing given tables, with the selectors of the same lengths. The running sums are only
fixed as far as the gates see them. -/
structure Cols (n : Nat) (mx : Matrix) (ch : Nat → Fr) (st : Starts)
    (as : List ProcAcc) (vin vcode : List Fr) (g : Grid) : Prop where
  roomP : mx.processor.length < n - 6
  roomM : mx.memory.length < n - 6
  roomI : mx.instruction.length < n - 6
  roomO : mx.output.length < n - 6
  roomN : mx.input.length < n - 6
  roomG : mx.program.length < n - 6
  accs : procAccs cCfg ch st.proc mx.processor = .ok as
  vinLen : vin.length = mx.input.length
  vcodeLen : vcode.length = mx.program.length
  proc : ∀ c, c ≤ 6 → ∀ (r : Nat) x, mx.processor[r]? = some x → g.advice c r = procCol c x
  procRun : ∀ c, 7 ≤ c ∧ c ≤ 10 → ∀ (r : Nat) x, (st.proc :: as)[r]? = some x →
    c ≤ 8 ∨ r < mx.processor.length → g.advice c r = procRun c x
  procSel : ∀ s, s = 0 ∨ s = 1 ∨ s = 4 → ∀ r, g.selector s r = decide (r < mx.processor.length)
  procStep : ∀ s, s = 2 ∨ s = 5 → ∀ r, g.selector s r = decide (r < mx.processor.length - 1)
  procFirst : ∀ r, g.selector 3 r = decide (r = 0)
  mem : ∀ c, 11 ≤ c ∧ c ≤ 13 → ∀ (r : Nat) x, mx.memory[r]? = some x → g.advice c r = memCol c x
  memRun : ∀ (r : Nat) x, (st.mem :: memAccs cCfg ch st.mem mx.memory)[r]? = some x →
    g.advice 14 r = x
  memSel : ∀ r, g.selector 7 r = decide (r < mx.memory.length)
  memStep : ∀ r, g.selector 6 r = decide (r < mx.memory.length - 1)
  ins : ∀ c, 15 ≤ c ∧ c ≤ 17 → ∀ (r : Nat) x, mx.instruction[r]? = some x →
    g.advice c r = instCol c x
  insRun : ∀ (r : Nat) x,
    (st.inst :: instAccs cCfg ch st.inst mx.instruction)[r]? = some x →
    g.advice 18 r = x.1 ∧ (r < mx.instruction.length → g.advice 19 r = x.2)
  insStep : ∀ s, s = 8 ∨ s = 9 ∨ s = 11 → ∀ r,
    g.selector s r = decide (r < mx.instruction.length - 1)
  insAdhoc : ∀ r, g.selector 10 r = decide (r = mx.instruction.length)
  out : ∀ (r : Nat) x, mx.output[r]? = some x → g.advice 20 r = x
  outRun : ∀ (r : Nat) x, (st.out :: rsAccs (ch 9) st.out mx.output)[r]? = some x →
    g.advice 21 r = x
  outSel : ∀ r, g.selector 12 r = decide (r < mx.output.length)
  inp : ∀ (r : Nat) x, vin[r]? = some x → g.advice 22 r = x
  inpRun : ∀ (r : Nat) x, (st.inp :: rsAccs (ch 10) st.inp vin)[r]? = some x → g.advice 24 r = x
  inpSel : ∀ r, g.selector 13 r = decide (r < mx.input.length)
  prog : ∀ (r : Nat) x, vcode[r]? = some x → g.advice 25 r = x
  progRun : ∀ (r : Nat) x, (st.prog :: rsAccs (ch 8) st.prog vcode)[r]? = some x →
    g.advice 27 r = x
  progSel : ∀ r, g.selector 14 r = decide (r < mx.program.length)
  challenge : ∀ i, g.challenge i = ch i

/-- Where synthesis starts the running columns. -/
def honestStarts : Starts := ⟨procInit, 3, (9, 0), 0, 0, 0⟩

theorem Filled.cols {n : Nat} {mx : Matrix} {ch : Nat → Fr} {inst : Nat → List Fr}
    {as : List ProcAcc} {vin vcode : List Fr} {g : Grid}
    (h : Filled n mx ch inst as vin vcode g) : Cols n mx ch honestStarts as vin vcode g :=
  { roomP := h.roomP, roomM := h.roomM, roomI := h.roomI, roomO := h.roomO, roomN := h.roomN
    roomG := h.roomG, accs := h.accs, vinLen := h.vinLen, vcodeLen := h.vcodeLen, proc := h.proc
    procRun := fun c hc r x hx _ => h.procRun c hc r x hx
    procSel := h.procSel, procStep := h.procStep, procFirst := h.procFirst, mem := h.mem
    memRun := h.memRun, memSel := h.memSel, memStep := h.memStep, ins := h.ins
    insRun := fun r x hx => ⟨(h.insRun r x hx).1, fun _ => (h.insRun r x hx).2⟩
    insStep := h.insStep, insAdhoc := h.insAdhoc, out := h.out, outRun := h.outRun
    outSel := h.outSel, inp := h.inp, inpRun := h.inpRun, inpSel := h.inpSel, prog := h.prog
    progRun := h.progRun, progSel := h.progSel, challenge := h.challenge }

theorem Cols.rules {n : Nat} {mx : Matrix} {ch : Nat → Fr} {st : Starts}
    {as : List ProcAcc} {vin vcode : List Fr} {g : Grid}
    (h : Cols n mx ch st as vin vcode g) (hg : GoodRows mx) (row : Nat) : Rules n g row := by
  have hrP := h.roomP
  have hrM := h.roomM
  have hrI := h.roomI
  have hrO := h.roomO
  have hrN := h.roomN
  have hrG := h.roomG
  have nx : ∀ {m : Nat}, m < n - 6 → row < m → nxt n row = row + 1 := by
    intro m h1 h2
    exact rotate_one (by omega)
  -- the first row
  have hB : g.selector 3 row = true → row = 0 := by
    intro hs; rw [h.procFirst] at hs; simpa using hs
  obtain ⟨r0, hr0, z1, z2, z3, z4⟩ := hg.first
  -- processor steps
  have hP : ∀ s, s = 2 ∨ s = 5 → g.selector s row = true → nxt n row = row + 1 ∧
      ∃ r r', mx.processor[row]? = some r ∧ mx.processor[row + 1]? = some r' := by
    intro s hs hsel
    rw [h.procStep s hs] at hsel
    simp only [decide_eq_true_eq] at hsel
    obtain ⟨r, hr⟩ := some_of_lt (l := mx.processor) (i := row) (by omega)
    obtain ⟨r', hr'⟩ := some_of_lt (l := mx.processor) (i := row + 1) (by omega)
    exact ⟨nx hrP (by omega), r, r', hr, hr'⟩
  have hPr : ∀ s, s = 0 ∨ s = 1 ∨ s = 4 → g.selector s row = true → nxt n row = row + 1 ∧
      ∃ r, mx.processor[row]? = some r := by
    intro s hs hsel
    rw [h.procSel s hs] at hsel
    simp only [decide_eq_true_eq] at hsel
    exact ⟨nx hrP hsel, some_of_lt hsel⟩
  have hM : g.selector 6 row = true → nxt n row = row + 1 ∧
      ∃ r r', mx.memory[row]? = some r ∧ mx.memory[row + 1]? = some r' := by
    intro hsel
    rw [h.memStep] at hsel
    simp only [decide_eq_true_eq] at hsel
    obtain ⟨r, hr⟩ := some_of_lt (l := mx.memory) (i := row) (by omega)
    obtain ⟨r', hr'⟩ := some_of_lt (l := mx.memory) (i := row + 1) (by omega)
    exact ⟨nx hrM (by omega), r, r', hr, hr'⟩
  have hI : ∀ s, s = 8 ∨ s = 9 ∨ s = 11 → g.selector s row = true → nxt n row = row + 1 ∧
      ∃ r r', mx.instruction[row]? = some r ∧ mx.instruction[row + 1]? = some r' := by
    intro s hs hsel
    rw [h.insStep s hs] at hsel
    simp only [decide_eq_true_eq] at hsel
    obtain ⟨r, hr⟩ := some_of_lt (l := mx.instruction) (i := row) (by omega)
    obtain ⟨r', hr'⟩ := some_of_lt (l := mx.instruction) (i := row + 1) (by omega)
    exact ⟨nx hrI (by omega), r, r', hr, hr'⟩
  have p := fun c hc {r x} => h.proc c hc r x
  have pr := fun c hc {r x} => h.procRun c hc r x
  have m := fun c hc {r x} => h.mem c hc r x
  have ins := fun c hc {r x} => h.ins c hc r x
  have hch : g.challenge = ch := funext h.challenge
  exact
  { bClk := fun hs => by rw [hB hs, p 0 (by omega) hr0]; exact z1
    bIp := fun hs => by rw [hB hs, p 2 (by omega) hr0]; exact z2
    bMp := fun hs => by rw [hB hs, p 4 (by omega) hr0]; exact z3
    bMv := fun hs => by rw [hB hs, p 5 (by omega) hr0]; exact z4
    p0 := fun hs => by
      obtain ⟨e, r, r', hr, hr'⟩ := hP 2 (by simp) hs
      obtain ⟨op, -, -, hc, -⟩ := hg.step row r r' hr hr'
      rw [e, p 0 (by omega) hr, p 0 (by omega) hr']
      show r'.cycle - r.cycle - 1 = 0
      rw [hc]; ring
    c0 := fun hs => by
      obtain ⟨e, r, hr⟩ := hPr 1 (by simp) hs
      rw [p 5 (by omega) hr, p 6 (by omega) hr]
      exact (hg.inv r (List.mem_of_getElem? hr)).1
    c1 := fun hs => by
      obtain ⟨e, r, hr⟩ := hPr 1 (by simp) hs
      rw [p 5 (by omega) hr, p 6 (by omega) hr]
      exact (hg.inv r (List.mem_of_getElem? hr)).2
    p1 := fun hs => by
      obtain ⟨e, r, r', hr, hr'⟩ := hP 2 (by simp) hs
      obtain ⟨op, -, ho, -, h1, -, -⟩ := hg.step row r r' hr hr'
      rw [e, p 1 (by omega) hr, p 2 (by omega) hr, p 2 (by omega) hr', p 5 (by omega) hr,
        p 6 (by omega) hr, p 3 (by omega) hr]
      rw [← ho] at h1
      exact h1
    p2 := fun hs => by
      obtain ⟨e, r, r', hr, hr'⟩ := hP 2 (by simp) hs
      obtain ⟨op, -, ho, -, -, h1, -⟩ := hg.step row r r' hr hr'
      rw [e, p 1 (by omega) hr, p 4 (by omega) hr, p 4 (by omega) hr']
      rw [← ho] at h1
      exact h1
    p3 := fun hs => by
      obtain ⟨e, r, r', hr, hr'⟩ := hP 2 (by simp) hs
      obtain ⟨op, -, ho, -, -, -, h1⟩ := hg.step row r r' hr hr'
      rw [e, p 1 (by omega) hr, p 5 (by omega) hr, p 5 (by omega) hr']
      rw [← ho] at h1
      exact h1
    m0 := fun hs => by
      obtain ⟨e, r, r', hr, hr'⟩ := hM hs
      rw [e, m 12 (by omega) hr, m 12 (by omega) hr']
      show (r'.memory_pointer - r.memory_pointer - 1) * (r'.memory_pointer - r.memory_pointer) = 0
      rcases hg.mem row r r' hr hr' with ⟨h1, -⟩ | ⟨h1, -⟩ <;> rw [h1] <;> ring
    m1 := fun hs => by
      obtain ⟨e, r, r', hr, hr'⟩ := hM hs
      rw [e, m 12 (by omega) hr, m 12 (by omega) hr', m 13 (by omega) hr, m 13 (by omega) hr',
        m 11 (by omega) hr, m 11 (by omega) hr']
      show (r'.memory_pointer - r.memory_pointer - 1) * ((r.memory_value - r'.memory_value) *
        (r'.cycle - r.cycle - 1)) = 0
      rcases hg.mem row r r' hr hr' with ⟨h1, h2⟩ | ⟨h1, -⟩
      · by_cases hc : r'.cycle = r.cycle + 1
        · rw [hc]; ring
        · rw [h2 hc]; ring
      · rw [h1]; ring
    m2 := fun hs => by
      obtain ⟨e, r, r', hr, hr'⟩ := hM hs
      rw [e, m 12 (by omega) hr, m 12 (by omega) hr', m 13 (by omega) hr']
      show (r'.memory_pointer - r.memory_pointer) * r'.memory_value = 0
      rcases hg.mem row r r' hr hr' with ⟨h1, h2⟩ | ⟨h1, h2⟩
      · rw [h1]; ring
      · rw [h2]; ring
    i0 := fun hs => by
      obtain ⟨e, r, r', hr, hr'⟩ := hI 11 (by simp) hs
      rw [e, ins 15 (by omega) hr, ins 15 (by omega) hr']
      show (r'.instruction_pointer - r.instruction_pointer) *
        (r'.instruction_pointer - r.instruction_pointer - 1) = 0
      rcases hg.ins row r r' hr hr' with h1 | h1 <;> rw [h1] <;> ring
    i1 := fun hs => by
      obtain ⟨e, r, r', hr, hr'⟩ := hI 11 (by simp) hs
      rw [e, ins 15 (by omega) hr, ins 15 (by omega) hr', ins 16 (by omega) hr,
        ins 16 (by omega) hr']
      show (r'.instruction_pointer - r.instruction_pointer - 1) *
        (r'.current_instruction - r.current_instruction) = 0
      rcases hg.ins row r r' hr hr' with h1 | h1 <;> rw [h1] <;> ring
    i2 := fun hs => by
      obtain ⟨e, r, r', hr, hr'⟩ := hI 11 (by simp) hs
      rw [e, ins 15 (by omega) hr, ins 15 (by omega) hr', ins 17 (by omega) hr,
        ins 17 (by omega) hr']
      show (r'.instruction_pointer - r.instruction_pointer - 1) *
        (r'.next_instruction - r.next_instruction) = 0
      rcases hg.ins row r r' hr hr' with h1 | h1 <;> rw [h1] <;> ring
    memPrp := fun hs => by
      rw [h.memSel] at hs
      simp only [decide_eq_true_eq] at hs
      obtain ⟨r, hr⟩ := some_of_lt hs
      obtain ⟨x, hx, hy⟩ := memAccs_step (ch := ch) mx.memory st.mem row r hr
      rw [nx hrM hs, h.memRun _ _ hx, h.memRun _ _ hy, m 11 (by omega) hr, m 12 (by omega) hr,
        m 13 (by omega) hr, hch]
      exact sub_self _
    procMemPrp := fun hs => by
      obtain ⟨e, r, hr⟩ := hPr 4 (by simp) hs
      obtain ⟨x, y, hx, hy, hn⟩ := procAccs_step h.accs row r hr
      obtain ⟨h1, -⟩ := ProcAcc.next_ok hn
      rw [e, pr 7 (by omega) hx (by omega), pr 7 (by omega) hy (by omega), p 0 (by omega) hr, p 4 (by omega) hr,
        p 5 (by omega) hr, hch]
      show y.memPrp - _ = 0
      rw [h1]
      exact sub_self _
    procInstPrp := fun hs => by
      obtain ⟨e, r, hr⟩ := hPr 4 (by simp) hs
      obtain ⟨x, y, hx, hy, hn⟩ := procAccs_step h.accs row r hr
      obtain ⟨-, h1, -⟩ := ProcAcc.next_ok hn
      rw [e, pr 8 (by omega) hx (by omega), pr 8 (by omega) hy (by omega), p 2 (by omega) hr, p 1 (by omega) hr,
        p 3 (by omega) hr, hch]
      show y.instPrp - _ = 0
      rw [h1]
      exact sub_self _
    procOut := fun hs => by
      obtain ⟨e, r, r', hr, hr'⟩ := hP 5 (by simp) hs
      have hl := lt_of_some hr'
      obtain ⟨op, hop, ho, -⟩ := hg.step row r r' hr hr'
      obtain ⟨x, y, hx, hy, hn⟩ := procAccs_step h.accs row r hr
      obtain ⟨-, -, h1, -⟩ := ProcAcc.next_ok hn
      rw [e, pr 9 (by omega) hx (by omega), pr 9 (by omega) hy (by omega), p 1 (by omega) hr, rotate_zero (by omega),
        p 5 (by omega) hr, hch]
      show desel PUTCHAR r.current_instruction * (y.outputRs - (x.outputRs * ch 9 + r.memory_value)) +
        (r.current_instruction - frOfByte PUTCHAR) * (y.outputRs - x.outputRs) = 0
      rw [h1]
      by_cases hc : r.current_instruction = frOfByte PUTCHAR
      · rw [if_pos hc, hc]
        show _ * (x.outputRs * ch 9 + r.memory_value - (x.outputRs * ch 9 + r.memory_value)) + _ = _
        ring
      · rw [if_neg hc]
        have : desel PUTCHAR r.current_instruction = 0 := by
          rw [ho]
          exact desel_zero (by decide) hop (fun hh => hc (by rw [ho, hh]))
        rw [this]; ring
    procIn := fun hs => by
      obtain ⟨e, r, r', hr, hr'⟩ := hP 5 (by simp) hs
      have hl := lt_of_some hr'
      obtain ⟨op, hop, ho, -⟩ := hg.step row r r' hr hr'
      obtain ⟨x, y, hx, hy, hn⟩ := procAccs_step h.accs row r hr
      obtain ⟨-, -, -, h1, h2⟩ := ProcAcc.next_ok hn
      rw [e, pr 10 (by omega) hx (by omega), pr 10 (by omega) hy (by omega), p 1 (by omega) hr,
        p 5 (by omega) hr', hch]
      show desel GETCHAR r.current_instruction * (y.inputRs - (x.inputRs * ch 10 + r'.memory_value)) +
        (r.current_instruction - frOfByte GETCHAR) * (y.inputRs - x.inputRs) = 0
      by_cases hc : r.current_instruction = frOfByte GETCHAR
      · obtain ⟨q, hq, h3⟩ := h1 hc
        rw [hr'] at hq
        cases hq
        rw [h3, hc]
        show _ * (x.inputRs * ch 10 + r'.memory_value - (x.inputRs * ch 10 + r'.memory_value)) + _ = _
        ring
      · rw [h2 hc]
        have : desel GETCHAR r.current_instruction = 0 := by
          rw [ho]
          exact desel_zero (by decide) hop (fun hh => hc (by rw [ho, hh]))
        rw [this]; ring
    instRs := fun hs => by
      obtain ⟨e, r, r', hr, hr'⟩ := hI 9 (by simp) hs
      obtain ⟨x, hx, hy⟩ := instAccs_step (ch := ch) mx.instruction st.inst row r hr
      rw [hr'] at hy
      have hl := lt_of_some hr'
      rw [e, (h.insRun _ _ hx).2 (by omega), (h.insRun _ _ hy).2 hl, ins 15 (by omega) hr, ins 15 (by omega) hr',
        ins 16 (by omega) hr, hch]
      show (r'.instruction_pointer - r.instruction_pointer) * ((instNext ch r r' x).2 -
        (x.2 * ch 8 + r.current_instruction)) + (r'.instruction_pointer - r.instruction_pointer - 1) *
        ((instNext ch r r' x).2 - x.2) = 0
      unfold instNext
      by_cases hip : r'.instruction_pointer = r.instruction_pointer
      · rw [if_pos hip, hip]; ring
      · rw [if_neg hip]
        rcases hg.ins row r r' hr hr' with h1 | h1
        · exact absurd (by rw [h1]) hip
        · rw [h1]
          show _ * (ch 8 * x.2 + r.current_instruction - _) + _ = _
          ring
    instPrp := fun hs => by
      obtain ⟨e, r, r', hr, hr'⟩ := hI 8 (by simp) hs
      obtain ⟨x, hx, hy⟩ := instAccs_step (ch := ch) mx.instruction st.inst row r hr
      rw [hr'] at hy
      rw [e, (h.insRun _ _ hx).1, (h.insRun _ _ hy).1, ins 15 (by omega) hr, ins 15 (by omega) hr',
        ins 16 (by omega) hr, ins 17 (by omega) hr, hch]
      show (r'.instruction_pointer - r.instruction_pointer - 1) * ((instNext ch r r' x).1 -
        x.1 * factor ch (4, 5, 6, 7) r.instruction_pointer r.current_instruction r.next_instruction) +
        (r.instruction_pointer - r'.instruction_pointer) * (x.1 - (instNext ch r r' x).1) = 0
      unfold instNext
      by_cases hip : r'.instruction_pointer = r.instruction_pointer
      · rw [if_pos hip, hip]
        show (_ - _ - 1) * (x.1 * prpFactor ch (4, 5, 6, 7) _ _ _ - x.1 * factor ch _ _ _ _) + _ = _
        rw [factor_eq]; ring
      · rw [if_neg hip]
        rcases hg.ins row r r' hr hr' with h1 | h1
        · exact absurd (by rw [h1]) hip
        · rw [h1]; ring
    instAdhoc := fun hs => by
      rw [h.insAdhoc] at hs
      simp only [decide_eq_true_eq] at hs
      have hne : 0 < mx.instruction.length := List.length_pos_iff.2 hg.insNe
      obtain ⟨k, hk⟩ : ∃ k, row = k + 1 := ⟨row - 1, by omega⟩
      subst hk
      have hpr : prv n (k + 1) = k := rotate_neg_one (by omega)
      obtain ⟨r, hr⟩ := some_of_lt (l := mx.instruction) (i := k) (by omega)
      obtain ⟨x, hx, hy⟩ := instAccs_step (ch := ch) mx.instruction st.inst k r hr
      rw [hpr, (h.insRun _ _ hx).1, (h.insRun _ _ hy).1, ins 15 (by omega) hr,
        ins 16 (by omega) hr, ins 17 (by omega) hr, hch,
        List.getElem?_eq_none (l := mx.instruction) (by omega)]
      show (instNext ch r r x).1 - _ = 0
      unfold instNext
      rw [if_pos rfl]
      exact sub_self _
    outRs := fun hs => by
      rw [h.outSel] at hs
      simp only [decide_eq_true_eq] at hs
      obtain ⟨v, hv⟩ := some_of_lt hs
      obtain ⟨x, hx, hy⟩ := rsAccs_step (gamma := ch 9) mx.output st.out row v hv
      rw [nx hrO hs, h.outRun _ _ hx, h.outRun _ _ hy, h.out _ _ hv, hch]
      ring
    inRs := fun hs => by
      rw [h.inpSel] at hs
      simp only [decide_eq_true_eq] at hs
      obtain ⟨v, hv⟩ := some_of_lt (l := vin) (i := row) (by rw [h.vinLen]; exact hs)
      obtain ⟨x, hx, hy⟩ := rsAccs_step (gamma := ch 10) vin st.inp row v hv
      rw [nx hrN hs, h.inpRun _ _ hx, h.inpRun _ _ hy, h.inp _ _ hv, hch]
      ring
    progRs := fun hs => by
      rw [h.progSel] at hs
      simp only [decide_eq_true_eq] at hs
      obtain ⟨v, hv⟩ := some_of_lt (l := vcode) (i := row) (by rw [h.vcodeLen]; exact hs)
      obtain ⟨x, hx, hy⟩ := rsAccs_step (gamma := ch 8) vcode st.prog row v hv
      rw [nx hrG hs, h.progRun _ _ hx, h.progRun _ _ hy, h.prog _ _ hv, hch]
      ring }

theorem Filled.rules {n : Nat} {mx : Matrix} {ch : Nat → Fr} {inst : Nat → List Fr}
    {as : List ProcAcc} {vin vcode : List Fr} {g : Grid}
    (h : Filled n mx ch inst as vin vcode g) (hg : GoodRows mx) (row : Nat) : Rules n g row :=
  h.cols.rules hg row

end Verif
