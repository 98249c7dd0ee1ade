import Verif.Model.Interp
import Mathlib.Tactic.Ring
import Mathlib.Tactic.NormNum

/-!
The word machine: the interpreter with natural numbers in place of field elements, and the proof
that the interpreter model follows it (helper for the property theorems).
-/

namespace Verif

/-! Casting small naturals to the field. -/

theorem Fr.val_cast {a : Nat} (h : a < P) : ((a : Fr)).val = a := ZMod.val_natCast_of_lt h

theorem Fr.cast_inj {a b : Nat} (ha : a < P) (hb : b < P) : (a : Fr) = (b : Fr) ↔ a = b := by
  constructor
  · intro h
    rw [← Fr.val_cast ha, ← Fr.val_cast hb, h]
  · rintro rfl; rfl

theorem pow_lt_P : (2 : Nat) ^ 253 < P := by decide +kernel

theorem lt_P_of_lt {a k : Nat} (h : a < 2 ^ k) (hk : k ≤ 253) : a < P :=
  lt_trans (lt_of_lt_of_le h (Nat.pow_le_pow_right (by norm_num) hk)) pow_lt_P

theorem Fr.toUsize_cast {a : Nat} (h : a < 2 ^ 64) : (a : Fr).toUsize = a := by
  unfold Fr.toUsize
  rw [Fr.val_cast (lt_P_of_lt h (by norm_num)), Nat.mod_eq_of_lt (a := a) (by omega), Nat.mod_eq_of_lt h]

theorem Fr.toU8_cast {a : Nat} (h : a < 2 ^ 64) : (a : Fr).toU8 = a % 256 := by
  unfold Fr.toU8
  rw [Fr.val_cast (lt_P_of_lt h (by norm_num)), Nat.mod_eq_of_lt (a := a) (by omega)]
  norm_num

theorem Fr.lt_cast {a b : Nat} (ha : a < P) (hb : b < P) :
    Fr.lt (a : Fr) (b : Fr) = decide (a < b) := by
  unfold Fr.lt; rw [Fr.val_cast ha, Fr.val_cast hb]

theorem Fr.toUsize_neg_one : ((-1 : Fr)).toUsize = 4891460686036598784 := by
  have : (-1 : Fr) = ((P - 1 : Nat) : Fr) := by
    rw [Nat.cast_sub (by decide +kernel), ZMod.natCast_self]; simp
  rw [this]
  unfold Fr.toUsize
  rw [Fr.val_cast (by decide +kernel)]
  decide +kernel

/-- State of the word machine. -/
structure W where
  cyc : Nat := 0
  ip : Nat := 0
  mp : Nat := 0
  mem : List Nat := [0]
  inp : List Nat := []
  read : List Nat := []
  out : List Nat := []
  deriving DecidableEq, Repr

namespace W

/-- The word at the instruction pointer, 0 beyond the end. -/
def ci (code : List Nat) (w : W) : Nat := code.getD w.ip 0
/-- The word after it. -/
def ni (code : List Nat) (w : W) : Nat := code.getD (w.ip + 1) 0
/-- The current cell. -/
def mv (w : W) : Nat := w.mem.getD w.mp 0

def halted (code : List Nat) (w : W) : Bool := decide (code.length ≤ w.ip)

/-- One step of the word machine. -/
def step (code : List Nat) (bits : Nat) (w : W) : Except Panic W :=
  let op := w.ci code % 256
  if op = 60 then
    if w.mp = 0 then .error .index
    else .ok { w with cyc := w.cyc + 1, ip := w.ip + 1, mp := w.mp - 1 }
  else if op = 62 then
    .ok { w with cyc := w.cyc + 1, ip := w.ip + 1, mp := w.mp + 1,
                 mem := if w.mp + 1 = w.mem.length then w.mem ++ [0] else w.mem }
  else if op = 43 then
    .ok { w with cyc := w.cyc + 1, ip := w.ip + 1,
                 mem := w.mem.set w.mp (if w.mv = 2 ^ bits - 1 then 0 else w.mv + 1) }
  else if op = 45 then
    .ok { w with cyc := w.cyc + 1, ip := w.ip + 1,
                 mem := w.mem.set w.mp (if w.mv = 0 then 2 ^ bits - 1 else w.mv - 1) }
  else if op = 44 then
    match w.inp with
    | [] => .error .remove
    | c :: rest => .ok { w with cyc := w.cyc + 1, ip := w.ip + 1, mem := w.mem.set w.mp c,
                                inp := rest, read := w.read ++ [c] }
  else if op = 46 then
    .ok { w with cyc := w.cyc + 1, ip := w.ip + 1, out := w.out ++ [w.mv] }
  else if op = 91 then
    if w.mv = 0 then
      match code[w.ip + 1]? with
      | none => .error .index
      | some t => .ok { w with cyc := w.cyc + 1, ip := t }
    else .ok { w with cyc := w.cyc + 1, ip := w.ip + 2 }
  else if op = 93 then
    if w.mv ≠ 0 then
      match code[w.ip + 1]? with
      | none => .error .index
      | some t => .ok { w with cyc := w.cyc + 1, ip := t }
    else .ok { w with cyc := w.cyc + 1, ip := w.ip + 2 }
  else .error .unreachable

/-- The loop of the word machine, returning also the list of states visited before the last. -/
def loop (code : List Nat) (bits : Nat) : Nat → W → List W → Option (Except Panic (W × List W))
  | 0, w, hist => if w.halted code then some (.ok (w, hist)) else none
  | n + 1, w, hist =>
    if w.halted code then some (.ok (w, hist))
    else match step code bits w with
      | .error e => some (.error e)
      | .ok w' => loop code bits n w' (hist ++ [w])

/-- The register row of a state. -/
def reg (code : List Nat) (w : W) : Register where
  cycle := w.cyc
  instruction_pointer := w.ip
  current_instruction := w.ci code
  next_instruction := w.ni code
  memory_pointer := w.mp
  memory_value := w.mv
  memory_value_inverse := if (w.mv : Fr) = 0 then 0 else Fr.inv (w.mv : Fr)

/-- Cast of a list of naturals. -/
def cast (l : List Nat) : List Fr := l.map (fun (n : Nat) => (n : Fr))

theorem getElem?_cast (l : List Nat) (i : Nat) : (cast l)[i]? = (l[i]?).map (fun (n : Nat) => (n : Fr)) := by
  unfold cast; rw [List.getElem?_map]

theorem length_cast (l : List Nat) : (cast l).length = l.length := by simp [cast]

/-- Cycle, pointers, cells and code fit. -/
structure Inv (code : List Nat) (bits : Nat) (w : W) : Prop where
  mp : w.mp < w.mem.length
  mem : ∀ v ∈ w.mem, v < 2 ^ bits
  inp : ∀ v ∈ w.inp, v < 2 ^ bits
  len : w.mem.length ≤ w.cyc + 1
  ip : w.ip ≤ code.length + 65536

/-- Bounds on the code: at most `2^32` words, each a `u16`. -/
structure CodeOk (code : List Nat) : Prop where
  nonempty : 0 < code.length
  len : code.length ≤ 2 ^ 32
  word : ∀ v ∈ code, v < 65536

theorem mv_mem {code : List Nat} {bits : Nat} {w : W} (h : Inv code bits w) :
    w.mem[w.mp]? = some w.mv := by
  unfold mv
  rw [List.getD_eq_getElem?_getD, List.getElem?_eq_getElem h.mp]; rfl

theorem mv_lt {code : List Nat} {bits : Nat} {w : W} (h : Inv code bits w) : w.mv < 2 ^ bits :=
  h.mem _ (List.mem_of_getElem? (mv_mem h))

theorem step_inv {code : List Nat} {bits : Nat} {w w' : W} (hc : CodeOk code) (h : Inv code bits w)
    (hs : step code bits w = .ok w') (hh : w.halted code = false) : Inv code bits w' := by
  have hip : w.ip < code.length := by simpa [halted] using hh
  have hmp := h.mp
  have hlen := h.len
  have h2 : 0 < 2 ^ bits := Nat.pow_pos (by norm_num)
  have hmv := mv_lt h
  have hset : ∀ (m : List Nat) (i v : Nat), (∀ x ∈ m, x < 2 ^ bits) → v < 2 ^ bits →
      ∀ x ∈ m.set i v, x < 2 ^ bits := by
    intro m i v hm hv x hx
    rcases List.mem_or_eq_of_mem_set hx with hx | rfl
    · exact hm x hx
    · exact hv
  have hword : ∀ (i t : Nat), code[i]? = some t → t ≤ code.length + 65536 := by
    intro i t ht
    have := hc.word t (List.mem_of_getElem? ht)
    omega
  unfold step at hs
  simp only at hs
  by_cases c1 : w.ci code % 256 = 60
  · rw [if_pos c1] at hs
    split_ifs at hs
    cases hs; exact ⟨by simp; omega, h.mem, h.inp, by simp; omega, by simp; omega⟩
  rw [if_neg c1] at hs
  by_cases c2 : w.ci code % 256 = 62
  · rw [if_pos c2] at hs
    by_cases hg : w.mp + 1 = w.mem.length
    · rw [if_pos hg] at hs
      cases hs
      refine ⟨by simp; omega, ?_, h.inp, by simp; omega, by simp; omega⟩
      intro v hv
      rcases List.mem_append.1 hv with hv | hv
      · exact h.mem v hv
      · simp at hv; omega
    · rw [if_neg hg] at hs
      cases hs
      exact ⟨by simp; omega, h.mem, h.inp, by simp; omega, by simp; omega⟩
  rw [if_neg c2] at hs
  by_cases c3 : w.ci code % 256 = 43
  · rw [if_pos c3] at hs
    cases hs
    refine ⟨by simpa using hmp, hset _ _ _ h.mem ?_, h.inp, by simp; omega, by simp; omega⟩
    split_ifs <;> omega
  rw [if_neg c3] at hs
  by_cases c4 : w.ci code % 256 = 45
  · rw [if_pos c4] at hs
    cases hs
    refine ⟨by simpa using hmp, hset _ _ _ h.mem ?_, h.inp, by simp; omega, by simp; omega⟩
    split_ifs <;> omega
  rw [if_neg c4] at hs
  split_ifs at hs
  · cases hi : w.inp with
    | nil => rw [hi] at hs; cases hs
    | cons c rest =>
      rw [hi] at hs; cases hs
      refine ⟨by simpa using hmp, hset _ _ _ h.mem (h.inp c (by simp [hi])), ?_, by simp; omega,
        by simp; omega⟩
      intro v hv; exact h.inp v (by simp at hv; simp [hi, hv])
  · cases hs; exact ⟨by simpa using hmp, h.mem, h.inp, by simp; omega, by simp; omega⟩
  · cases hi : code[w.ip + 1]? with
    | none => rw [hi] at hs; cases hs
    | some t =>
      rw [hi] at hs; cases hs
      exact ⟨by simpa using hmp, h.mem, h.inp, by simp; omega, by simpa using hword _ _ hi⟩
  · cases hs; exact ⟨by simpa using hmp, h.mem, h.inp, by simp; omega, by simp; omega⟩
  · cases hi : code[w.ip + 1]? with
    | none => rw [hi] at hs; cases hs
    | some t =>
      rw [hi] at hs; cases hs
      exact ⟨by simpa using hmp, h.mem, h.inp, by simp; omega, by simpa using hword _ _ hi⟩
  · cases hs; exact ⟨by simpa using hmp, h.mem, h.inp, by simp; omega, by simp; omega⟩

theorem step_cyc {code : List Nat} {bits : Nat} {w w' : W} (hs : step code bits w = .ok w') :
    w'.cyc = w.cyc + 1 := by
  unfold step at hs
  simp only at hs
  split_ifs at hs <;> first
    | (cases hs; rfl)
    | (cases hi : code[w.ip + 1]? with
        | none => rw [hi] at hs; cases hs
        | some t => rw [hi] at hs; cases hs; rfl)
    | (cases hi : w.inp with
        | nil => rw [hi] at hs; cases hs
        | cons c rest => rw [hi] at hs; cases hs; rfl)

/-- The interpreter state of a word machine state and its history. -/
def emb (code : List Nat) (bits : Nat) (w : W) (hist : List W) : Interp where
  code := cast code
  input := cast w.inp
  memory := cast w.mem
  register := w.reg code
  matrix :=
    { processor := hist.map (reg code)
      instruction := Interp.programRows (cast code) ++
        hist.map (fun w => InstrRow.ofRegister (w.reg code))
      memory := hist.map (fun w => MemRow.ofRegister (w.reg code))
      input := cast w.read
      output := cast w.out
      program := cast code }
  bits := bits

theorem idx_cast (l : List Nat) (i : Nat) : Interp.idx (cast l) i =
    match l[i]? with
    | some a => .ok (a : Fr)
    | none => .error .index := by
  unfold Interp.idx
  rw [getElem?_cast]
  cases l[i]? <;> rfl

theorem put_cast {l : List Nat} {i : Nat} (h : i < l.length) (v : Nat) (a : Fr) (ha : a = (v : Fr)) :
    Interp.put (cast l) i a = .ok (cast (l.set i v)) := by
  subst ha
  unfold Interp.put
  rw [length_cast, if_pos h]
  simp [cast, List.map_set]

/-- The register update at the end of an iteration, on a word machine state. -/
theorem refresh_emb {code : List Nat} {bits : Nat} {w : W} (hc : CodeOk code)
    (hmp : w.mp < w.mem.length) (hmp2 : w.mp < 2 ^ 64) (hip : w.ip ≤ code.length + 65536)
    (s : Interp)
    (h1 : s.code = cast code) (h2 : s.memory = cast w.mem)
    (h3 : s.register.memory_pointer = (w.mp : Fr))
    (h4 : s.register.instruction_pointer = (w.ip : Fr))
    (h5 : s.register.cycle + 1 = (w.cyc : Fr))
    (h6 : s.bits = bits) (h7 : s.input = cast w.inp) (m : Matrix) (h8 : s.matrix = m) :
    Interp.refresh s = .ok
      { code := cast code, input := cast w.inp, memory := cast w.mem, register := w.reg code,
        matrix := m, bits := bits } := by
  have hlen := hc.len
  have hne := hc.nonempty
  have hP : code.length < P := lt_P_of_lt (k := 64) (by omega) (by norm_num)
  have hipP : w.ip < P := lt_P_of_lt (k := 64) (by omega) (by norm_num)
  have hipU : (s.register.ip) = w.ip := by
    unfold Register.ip; rw [h4, Fr.toUsize_cast (by omega)]
  have hmpU : (s.register.mp) = w.mp := by
    unfold Register.mp; rw [h3, Fr.toUsize_cast (by omega)]
  have hl1 : Fr.lt s.register.instruction_pointer (s.code.length : Fr) = decide (w.ip < code.length) := by
    rw [h1, h4, length_cast, Fr.lt_cast hipP hP]
  have hl2 : Fr.lt s.register.instruction_pointer ((s.code.length : Fr) - 1) =
      decide (w.ip < code.length - 1) := by
    have e : ((code.length : Fr) - 1) = ((code.length - 1 : Nat) : Fr) := by
      rw [Nat.cast_sub hne]; simp
    rw [h1, h4, length_cast, e, Fr.lt_cast hipP (by omega)]
  have hci : s.fetch = .ok ((w.ci code : Nat) : Fr) := by
    unfold Interp.fetch
    rw [hl1, hipU, h1, idx_cast]
    by_cases h : w.ip < code.length
    · simp only [h, decide_true, if_true]
      unfold ci
      rw [List.getD_eq_getElem?_getD, List.getElem?_eq_getElem h]; rfl
    · simp only [h, decide_false]
      unfold ci
      rw [List.getD_eq_getElem?_getD, List.getElem?_eq_none (by omega)]; simp
  have hni : s.fetchNext = .ok ((w.ni code : Nat) : Fr) := by
    unfold Interp.fetchNext
    rw [hl2, hipU, h1, idx_cast]
    by_cases h : w.ip < code.length - 1
    · simp only [h, decide_true, if_true]
      unfold ni
      rw [List.getD_eq_getElem?_getD, List.getElem?_eq_getElem (by omega)]; rfl
    · simp only [h, decide_false]
      unfold ni
      rw [List.getD_eq_getElem?_getD, List.getElem?_eq_none (by omega)]; simp
  have hmv : Interp.idx s.memory s.register.mp = .ok ((w.mv : Nat) : Fr) := by
    rw [hmpU, h2, idx_cast, List.getElem?_eq_getElem hmp]
    unfold mv
    rw [List.getD_eq_getElem?_getD, List.getElem?_eq_getElem hmp]; rfl
  unfold Interp.refresh
  rw [hci, hni, hmv]
  simp only [bind, Except.bind]
  congr 1
  rw [h1, h2, h6, h7, h8]
  unfold reg
  congr 1
  rw [h3, h4, h5]

/-- The initial state. -/
def init (inp : List Nat) : W := { inp := inp }

theorem init_inv {code inp : List Nat} {bits : Nat} (hi : ∀ v ∈ inp, v < 2 ^ bits) :
    Inv code bits (init inp) where
  mp := by simp [init]
  mem := by intro v hv; simp [init] at hv; subst hv; exact Nat.pow_pos (by norm_num)
  inp := hi
  len := by simp [init]
  ip := by simp [init]

theorem idx_error {l : List Fr} {i : Nat} {e : Panic} (h : Interp.idx l i = .error e) :
    e = .index := by
  unfold Interp.idx at h
  cases hl : l[i]? with
  | none => rw [hl] at h; cases h; rfl
  | some a => rw [hl] at h; cases h

theorem refresh_error {s : Interp} (h : Interp.idx s.memory s.register.mp = .error .index) :
    Interp.refresh s = .error .index := by
  unfold Interp.refresh
  cases h1 : s.fetch with
  | error e =>
    have : e = .index := by
      unfold Interp.fetch at h1
      split_ifs at h1
      exact idx_error h1
    subst this; rfl
  | ok a =>
    cases h2 : s.fetchNext with
    | error e =>
      have : e = .index := by
        unfold Interp.fetchNext at h2
        split_ifs at h2
        exact idx_error h2
      subst this; rfl
    | ok b => rw [h]; rfl

/-- One iteration of the interpreter follows the word machine. -/
theorem step_emb {code : List Nat} {bits : Nat} {w : W} (hist : List W) (hc : CodeOk code)
    (hb : bits < 64) (h : Inv code bits w) (hcyc : w.cyc < 2 ^ 62) (hh : w.halted code = false) :
    Interp.step (emb code bits w hist) =
      (step code bits w).map (fun w' => emb code bits w' (hist ++ [w])) := by
  have hip : w.ip < code.length := by simpa [halted] using hh
  have hlen := hc.len
  have hmp := h.mp
  have hmlen := h.len
  have hmv := mv_lt h
  have hpow : 2 ^ bits ≤ 2 ^ 63 := Nat.pow_le_pow_right (by norm_num) (by omega)
  have h2 : 0 < 2 ^ bits := Nat.pow_pos (by norm_num)
  have hPmv : w.mv < P := lt_P_of_lt (k := 64) (by omega) (by norm_num)
  have hPmax : 2 ^ bits - 1 < P := lt_P_of_lt (k := 64) (by omega) (by norm_num)
  have hP0 : 0 < P := P_prime.pos
  have hword : ∀ (i t : Nat), code[i]? = some t → t < 65536 := by
    intro i t ht; exact hc.word t (List.mem_of_getElem? ht)
  have hci : w.ci code < 65536 := by
    unfold ci
    rw [List.getD_eq_getElem?_getD, List.getElem?_eq_getElem hip]
    exact hword _ _ (List.getElem?_eq_getElem hip)
  have hmvmem := mv_mem h
  have hidx : Interp.idx (cast w.mem) (Fr.toUsize (w.mp : Fr)) = .ok (w.mv : Fr) := by
    rw [Fr.toUsize_cast (by omega), idx_cast, hmvmem]
  have hmv0 : ((w.mv : Fr) = 0) ↔ w.mv = 0 := by
    have := Fr.cast_inj hPmv hP0
    rwa [Nat.cast_zero] at this
  unfold Interp.step Interp.exec
  have hop : (emb code bits w hist).record.register.current_instruction.toU8 = w.ci code % 256 :=
    Fr.toU8_cast (by omega)
  simp only [hop]
  have e60 : SHL.toNat = 60 := rfl
  have e62 : SHR.toNat = 62 := rfl
  have e43 : ADD.toNat = 43 := rfl
  have e45 : SUB.toNat = 45 := rfl
  have e44 : GETCHAR.toNat = 44 := rfl
  have e46 : PUTCHAR.toNat = 46 := rfl
  have e91 : LB.toNat = 91 := rfl
  have e93 : RB.toNat = 93 := rfl
  have hmpreg : (emb code bits w hist).record.register.mp = Fr.toUsize (w.mp : Fr) := rfl
  have hipreg : (emb code bits w hist).record.register.ip = Fr.toUsize (w.ip : Fr) := rfl
  have hmemrec : (emb code bits w hist).record.memory = cast w.mem := rfl
  have hcoderec : (emb code bits w hist).record.code = cast code := rfl
  have hinrec : (emb code bits w hist).record.input = cast w.inp := rfl
  have hmax : (emb code bits w hist).record.cellMax = ((2 ^ bits - 1 : Nat) : Fr) := rfl
  rw [e60, e62, e43, e45, e44, e46, e91, e93]
  unfold step
  simp only
  have hcyc1 : (w.cyc : Fr) + 1 = ((w.cyc + 1 : Nat) : Fr) := by simp
  have hip1 : (w.ip : Fr) + 1 = ((w.ip + 1 : Nat) : Fr) := by simp
  have hip2 : (w.ip : Fr) + 2 = ((w.ip + 2 : Nat) : Fr) := by simp
  by_cases c1 : w.ci code % 256 = 60
  · simp only [if_pos c1]
    show Interp.refresh _ = _
    by_cases m0 : w.mp = 0
    · -- `<` at cell 0
      rw [if_pos m0]
      apply refresh_error
      have hneg : ((w.mp : Fr) - 1).toUsize = 4891460686036598784 := by
        rw [m0, Nat.cast_zero, zero_sub, Fr.toUsize_neg_one]
      show Interp.idx (cast w.mem) (((w.mp : Fr) - 1).toUsize) = _
      rw [hneg, idx_cast, List.getElem?_eq_none (by omega)]
    · rw [if_neg m0]
      have hmp1 : (w.mp : Fr) - 1 = ((w.mp - 1 : Nat) : Fr) := by
        rw [Nat.cast_sub (by omega)]; simp
      rw [refresh_emb (bits := bits)
        (w := { w with cyc := w.cyc + 1, ip := w.ip + 1, mp := w.mp - 1 })
        hc (by simp; omega) (by simp; omega) (by simp; omega) _ rfl rfl hmp1 hip1 hcyc1 rfl rfl _ rfl]
      simp [Except.map, emb, Interp.record, Interp.advance]
  simp only [if_neg c1]
  by_cases c2 : w.ci code % 256 = 62
  · simp only [if_pos c2]
    show Interp.refresh _ = _
    have hmp1 : (w.mp : Fr) + 1 = ((w.mp + 1 : Nat) : Fr) := by simp
    have hcond : (Register.mp { (emb code bits w hist).record.register with
        memory_pointer := (emb code bits w hist).record.register.memory_pointer + 1 } =
        (emb code bits w hist).record.memory.length) ↔ w.mp + 1 = w.mem.length := by
      show ((w.mp : Fr) + 1).toUsize = (cast w.mem).length ↔ _
      rw [hmp1, Fr.toUsize_cast (by omega), length_cast]
    by_cases hg : w.mp + 1 = w.mem.length
    · rw [if_pos (hcond.2 hg), if_pos hg]
      rw [refresh_emb (bits := bits)
        (w := { w with cyc := w.cyc + 1, ip := w.ip + 1, mp := w.mp + 1, mem := w.mem ++ [0] })
        hc (by simp; omega) (by simp; omega) (by simp; omega) _ rfl
          (by simp [cast, Interp.advance, emb, Interp.record]) hmp1 hip1 hcyc1 rfl rfl _ rfl]
      simp [Except.map, emb, Interp.record, Interp.advance]
    · rw [if_neg (fun h => hg (hcond.1 h)), if_neg hg]
      rw [refresh_emb (bits := bits)
        (w := { w with cyc := w.cyc + 1, ip := w.ip + 1, mp := w.mp + 1 })
        hc (by simp; omega) (by simp; omega) (by simp; omega) _ rfl rfl hmp1 hip1 hcyc1 rfl rfl _ rfl]
      simp [Except.map, emb, Interp.record, Interp.advance]
  simp only [if_neg c2]
  have hput : ∀ (v : Nat) (a : Fr), a = (v : Fr) →
      Interp.put (emb code bits w hist).record.memory (emb code bits w hist).record.register.mp a =
        .ok (cast (w.mem.set w.mp v)) := by
    intro v a ha
    show Interp.put (cast w.mem) ((w.mp : Fr)).toUsize a = _
    rw [Fr.toUsize_cast (by omega), put_cast hmp v a ha]
  have hidx' : Interp.idx (emb code bits w hist).record.memory
      (emb code bits w hist).record.register.mp = .ok (w.mv : Fr) := hidx
  by_cases c3 : w.ci code % 256 = 43
  · simp only [if_pos c3]
    rw [hidx']
    simp only [bind, Except.bind]
    rw [hput (if w.mv = 2 ^ bits - 1 then 0 else w.mv + 1)]
    · simp only
      rw [refresh_emb (bits := bits)
        (w := { w with cyc := w.cyc + 1, ip := w.ip + 1, mem := (w.mem.set w.mp
          (if w.mv = 2 ^ bits - 1 then 0 else w.mv + 1)) })
        hc (by simpa using hmp) (by simp; omega) (by simp; omega) _ rfl rfl rfl hip1 hcyc1 rfl rfl _ rfl]
      simp [Except.map, emb, Interp.record, Interp.advance]
    · rw [hmax]
      by_cases hv : w.mv = 2 ^ bits - 1
      · rw [if_pos hv, if_pos (by rw [hv])]; simp
      · rw [if_neg hv, if_neg (fun e => hv ((Fr.cast_inj hPmv hPmax).1 e))]; simp
  simp only [if_neg c3]
  by_cases c4 : w.ci code % 256 = 45
  · simp only [if_pos c4]
    rw [hidx']
    simp only [bind, Except.bind]
    rw [hput (if w.mv = 0 then 2 ^ bits - 1 else w.mv - 1)]
    · simp only
      rw [refresh_emb (bits := bits)
        (w := { w with cyc := w.cyc + 1, ip := w.ip + 1, mem := (w.mem.set w.mp
          (if w.mv = 0 then 2 ^ bits - 1 else w.mv - 1)) })
        hc (by simpa using hmp) (by simp; omega) (by simp; omega) _ rfl rfl rfl hip1 hcyc1 rfl rfl _ rfl]
      simp [Except.map, emb, Interp.record, Interp.advance]
    · rw [hmax]
      by_cases hv : w.mv = 0
      · rw [if_pos hv, if_pos (hmv0.2 hv)]
      · rw [if_neg hv, if_neg (fun e => hv (hmv0.1 e)), Nat.cast_sub (by omega)]; simp
  simp only [if_neg c4]
  by_cases c5 : w.ci code % 256 = 44
  · simp only [if_pos c5]
    rw [hinrec]
    cases hi : w.inp with
    | nil => rfl
    | cons c rest =>
      have : cast (c :: rest) = (c : Fr) :: cast rest := rfl
      rw [this]
      simp only [bind, Except.bind]
      rw [hput c _ rfl]
      simp only
      rw [refresh_emb (bits := bits)
        (w := { w with cyc := w.cyc + 1, ip := w.ip + 1, mem := w.mem.set w.mp c, inp := rest,
                       read := w.read ++ [c] })
        hc (by simpa using hmp) (by simp; omega) (by simp; omega) _ rfl rfl rfl hip1 hcyc1 rfl rfl _ rfl]
      simp [Except.map, emb, Interp.record, Interp.advance, cast]
  simp only [if_neg c5]
  by_cases c6 : w.ci code % 256 = 46
  · simp only [if_pos c6]
    show Interp.refresh _ = _
    rw [refresh_emb (bits := bits)
      (w := { w with cyc := w.cyc + 1, ip := w.ip + 1, out := w.out ++ [w.mv] })
      hc (by simpa using hmp) (by simp; omega) (by simp; omega) _ rfl rfl rfl hip1 hcyc1 rfl rfl _ rfl]
    simp [Except.map, emb, Interp.record, Interp.advance, cast, reg]
  simp only [if_neg c6]
  have hcode : Interp.idx (emb code bits w hist).record.code
      ((emb code bits w hist).record.register.ip + 1) =
      match code[w.ip + 1]? with
      | some a => .ok (a : Fr)
      | none => .error .index := by
    show Interp.idx (cast code) ((w.ip : Fr).toUsize + 1) = _
    rw [Fr.toUsize_cast (by omega), idx_cast]
  by_cases c7 : w.ci code % 256 = 91
  · simp only [if_pos c7]
    rw [hidx']
    simp only [bind, Except.bind]
    by_cases z : w.mv = 0
    · rw [if_pos z, if_pos (hmv0.2 z), hcode]
      cases ht : code[w.ip + 1]? with
      | none => rfl
      | some t =>
        simp only
        have := hword _ _ ht
        rw [refresh_emb (bits := bits) (w := { w with cyc := w.cyc + 1, ip := t })
          hc (by simpa using hmp) (by simp; omega) (by simp; omega) _ rfl rfl rfl rfl hcyc1 rfl rfl _ rfl]
        simp [Except.map, emb, Interp.record]
    · rw [if_neg z, if_neg (fun e => z (hmv0.1 e))]
      simp only
      rw [refresh_emb (bits := bits) (w := { w with cyc := w.cyc + 1, ip := w.ip + 2 })
        hc (by simpa using hmp) (by simp; omega) (by simp; omega) _ rfl rfl rfl hip2 hcyc1 rfl rfl _ rfl]
      simp [Except.map, emb, Interp.record, Interp.advance]
  simp only [if_neg c7]
  by_cases c8 : w.ci code % 256 = 93
  · simp only [if_pos c8]
    rw [hidx']
    simp only [bind, Except.bind]
    by_cases z : w.mv = 0
    · rw [if_neg (by rw [not_not]; exact hmv0.2 z), if_neg (by simpa using z)]
      simp only
      rw [refresh_emb (bits := bits) (w := { w with cyc := w.cyc + 1, ip := w.ip + 2 })
        hc (by simpa using hmp) (by simp; omega) (by simp; omega) _ rfl rfl rfl hip2 hcyc1 rfl rfl _ rfl]
      simp [Except.map, emb, Interp.record, Interp.advance]
    · rw [if_pos z, if_pos (fun e => z (hmv0.1 e)), hcode]
      cases ht : code[w.ip + 1]? with
      | none => rfl
      | some t =>
        simp only
        have := hword _ _ ht
        rw [refresh_emb (bits := bits) (w := { w with cyc := w.cyc + 1, ip := t })
          hc (by simpa using hmp) (by simp; omega) (by simp; omega) _ rfl rfl rfl rfl hcyc1 rfl rfl _ rfl]
        simp [Except.map, emb, Interp.record]
  simp only [if_neg c8]
  rfl

end W

end Verif
