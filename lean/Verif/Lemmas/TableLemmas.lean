import Verif.Lemmas.LoadLemmas

/-! The columns filled by `load_table` (helper for the property theorems). -/

namespace Verif

section loaded

variable {a : Assembly} {range : Nat} {p m i o n g e : List Op}

theorem loaded_advice (c r : Nat) : (loaded a range p m i o n g e).advice c r =
    (valueAt e c r).getD ((valueAt g c r).getD ((valueAt n c r).getD ((valueAt o c r).getD
      ((valueAt i c r).getD ((valueAt m c r).getD ((valueAt p c r).getD (a.advice c r))))))) := rfl

theorem loaded_selector (s r : Nat) : (loaded a range p m i o n g e).selector s r =
    (selAt e s r || (selAt g s r || (selAt n s r || (selAt o s r || (selAt i s r ||
      (selAt m s r || (selAt p s r || a.selector s r))))))) := rfl

theorem loaded_copies : (loaded a range p m i o n g e).copies =
    (((((((a.copies ++ p.flatMap Op.copies) ++ m.flatMap Op.copies) ++ i.flatMap Op.copies) ++
      o.flatMap Op.copies) ++ n.flatMap Op.copies) ++ g.flatMap Op.copies) ++
      [((.advice 26, 0), (.instance_ 0, 0))] ++ [((.advice 23, 0), (.instance_ 1, 0))]) ++
      e.flatMap Op.copies := rfl

theorem loaded_fixed (c r : Nat) : (loaded a range p m i o n g e).fixed c r =
    if c = 0 ∧ r < a.usable then (rangeValues range).getD r ((rangeValues range).headD 0)
    else a.fixed c r := rfl

/-- The seven regions stay within their columns. -/
structure Parts (p m i o n g e : List Op) : Prop where
  p : Within pCols p
  m : Within mCols m
  i : Within iCols i
  o : Within oCols o
  n : Within nCols n
  g : Within gCols g
  e : Within [] e

variable (h : Parts p m i o n g e)

include h

theorem loaded_p (c r : Nat) (hc : c ≤ 10) :
    (loaded a range p m i o n g e).advice c r = (valueAt p c r).getD (a.advice c r) := by
  rw [loaded_advice, h.e.value_none (by simp), h.g.value_none (by simp [gCols, adv]; omega),
    h.n.value_none (by simp [nCols, adv]; omega), h.o.value_none (by simp [oCols, adv]; omega),
    h.i.value_none (by simp [iCols, adv]; omega), h.m.value_none (by simp [mCols, adv]; omega)]
  rfl

theorem loaded_m (c r : Nat) (hc : 11 ≤ c ∧ c ≤ 14) :
    (loaded a range p m i o n g e).advice c r = (valueAt m c r).getD (a.advice c r) := by
  rw [loaded_advice, h.e.value_none (by simp), h.g.value_none (by simp [gCols, adv]; omega),
    h.n.value_none (by simp [nCols, adv]; omega), h.o.value_none (by simp [oCols, adv]; omega),
    h.i.value_none (by simp [iCols, adv]; omega), h.p.value_none (by simp [pCols, adv]; omega)]
  rfl

theorem loaded_i (c r : Nat) (hc : 15 ≤ c ∧ c ≤ 19) :
    (loaded a range p m i o n g e).advice c r = (valueAt i c r).getD (a.advice c r) := by
  rw [loaded_advice, h.e.value_none (by simp), h.g.value_none (by simp [gCols, adv]; omega),
    h.n.value_none (by simp [nCols, adv]; omega), h.o.value_none (by simp [oCols, adv]; omega),
    h.m.value_none (by simp [mCols, adv]; omega), h.p.value_none (by simp [pCols, adv]; omega)]
  rfl

theorem loaded_o (c r : Nat) (hc : 20 ≤ c ∧ c ≤ 21) :
    (loaded a range p m i o n g e).advice c r = (valueAt o c r).getD (a.advice c r) := by
  rw [loaded_advice, h.e.value_none (by simp), h.g.value_none (by simp [gCols, adv]; omega),
    h.n.value_none (by simp [nCols, adv]; omega), h.i.value_none (by simp [iCols, adv]; omega),
    h.m.value_none (by simp [mCols, adv]; omega), h.p.value_none (by simp [pCols, adv]; omega)]
  rfl

theorem loaded_n (c r : Nat) (hc : 22 ≤ c ∧ c ≤ 24) :
    (loaded a range p m i o n g e).advice c r = (valueAt n c r).getD (a.advice c r) := by
  rw [loaded_advice, h.e.value_none (by simp), h.g.value_none (by simp [gCols, adv]; omega),
    h.o.value_none (by simp [oCols, adv]; omega), h.i.value_none (by simp [iCols, adv]; omega),
    h.m.value_none (by simp [mCols, adv]; omega), h.p.value_none (by simp [pCols, adv]; omega)]
  rfl

theorem loaded_g (c r : Nat) (hc : 25 ≤ c ∧ c ≤ 27) :
    (loaded a range p m i o n g e).advice c r = (valueAt g c r).getD (a.advice c r) := by
  rw [loaded_advice, h.e.value_none (by simp), h.n.value_none (by simp [nCols, adv]; omega),
    h.o.value_none (by simp [oCols, adv]; omega), h.i.value_none (by simp [iCols, adv]; omega),
    h.m.value_none (by simp [mCols, adv]; omega), h.p.value_none (by simp [pCols, adv]; omega)]
  rfl

theorem loaded_sp (s r : Nat) (hs : s ≤ 5) :
    (loaded a range p m i o n g e).selector s r = (selAt p s r || a.selector s r) := by
  rw [loaded_selector, h.e.sel_false (by simp), h.g.sel_false (by simp [gCols, adv]; omega),
    h.n.sel_false (by simp [nCols, adv]; omega), h.o.sel_false (by simp [oCols, adv]; omega),
    h.i.sel_false (by simp [iCols, adv]; omega), h.m.sel_false (by simp [mCols, adv]; omega)]
  rfl

theorem loaded_sm (s r : Nat) (hs : 6 ≤ s ∧ s ≤ 7) :
    (loaded a range p m i o n g e).selector s r = (selAt m s r || a.selector s r) := by
  rw [loaded_selector, h.e.sel_false (by simp), h.g.sel_false (by simp [gCols, adv]; omega),
    h.n.sel_false (by simp [nCols, adv]; omega), h.o.sel_false (by simp [oCols, adv]; omega),
    h.i.sel_false (by simp [iCols, adv]; omega), h.p.sel_false (by simp [pCols, adv]; omega)]
  rfl

theorem loaded_si (s r : Nat) (hs : 8 ≤ s ∧ s ≤ 11) :
    (loaded a range p m i o n g e).selector s r = (selAt i s r || a.selector s r) := by
  rw [loaded_selector, h.e.sel_false (by simp), h.g.sel_false (by simp [gCols, adv]; omega),
    h.n.sel_false (by simp [nCols, adv]; omega), h.o.sel_false (by simp [oCols, adv]; omega),
    h.m.sel_false (by simp [mCols, adv]; omega), h.p.sel_false (by simp [pCols, adv]; omega)]
  rfl

theorem loaded_so (s r : Nat) (hs : s = 12) :
    (loaded a range p m i o n g e).selector s r = (selAt o s r || a.selector s r) := by
  rw [loaded_selector, h.e.sel_false (by simp), h.g.sel_false (by simp [gCols, adv]; omega),
    h.n.sel_false (by simp [nCols, adv]; omega), h.i.sel_false (by simp [iCols, adv]; omega),
    h.m.sel_false (by simp [mCols, adv]; omega), h.p.sel_false (by simp [pCols, adv]; omega)]
  rfl

theorem loaded_sn (s r : Nat) (hs : s = 13) :
    (loaded a range p m i o n g e).selector s r = (selAt n s r || a.selector s r) := by
  rw [loaded_selector, h.e.sel_false (by simp), h.g.sel_false (by simp [gCols, adv]; omega),
    h.o.sel_false (by simp [oCols, adv]; omega), h.i.sel_false (by simp [iCols, adv]; omega),
    h.m.sel_false (by simp [mCols, adv]; omega), h.p.sel_false (by simp [pCols, adv]; omega)]
  rfl

theorem loaded_sg (s r : Nat) (hs : s = 14) :
    (loaded a range p m i o n g e).selector s r = (selAt g s r || a.selector s r) := by
  rw [loaded_selector, h.e.sel_false (by simp), h.n.sel_false (by simp [nCols, adv]; omega),
    h.o.sel_false (by simp [oCols, adv]; omega), h.i.sel_false (by simp [iCols, adv]; omega),
    h.m.sel_false (by simp [mCols, adv]; omega), h.p.sel_false (by simp [pCols, adv]; omega)]
  rfl

end loaded

/-! Rows of each table. -/

theorem valueAt_single (c c' o' r : Nat) (v : Fr) :
    valueAt [.advice c' o' v] c r = if c = c' ∧ r = o' then some v else none := by
  simp [valueAt, Op.value]

theorem valueAt_nil (c r : Nat) : valueAt [] c r = none := rfl

theorem valueAt_cons (o : Op) (os : List Op) (c r : Nat) :
    valueAt (o :: os) c r = (valueAt os c r).or (o.value c r) := rfl

theorem selAt_cons (o : Op) (os : List Op) (s r : Nat) :
    selAt (o :: os) s r = (o.enables s r || selAt os s r) := by simp [selAt]

theorem selAt_nil (s r : Nat) : selAt [] s r = false := rfl

theorem valueAt_enables (p : Prop) [Decidable p] (l : List Op) (hl : ∀ o ∈ l, ∀ c r, o.value c r = none)
    (c r : Nat) : valueAt (if p then l else []) c r = none := by
  split_ifs
  · exact valueAt_none (fun o ho r => hl o ho c r) r
  · rfl

section proc

variable (len idx : Nat) (x : Register × ProcAcc)

theorem procRow_value (c o : Nat) : valueAt (procRow pCfg len idx x.1 x.2) c o =
    valueAt [.enable ⟨1, true⟩ idx, .enable ⟨0, false⟩ idx, .enable ⟨4, true⟩ idx,
      .advice 0 idx x.1.cycle, .advice 2 idx x.1.instruction_pointer,
      .advice 1 idx x.1.current_instruction, .advice 3 idx x.1.next_instruction,
      .advice 4 idx x.1.memory_pointer, .advice 5 idx x.1.memory_value,
      .advice 6 idx x.1.memory_value_inverse, .advice 7 (idx + 1) x.2.memPrp,
      .advice 8 (idx + 1) x.2.instPrp, .advice 9 (idx + 1) x.2.outputRs,
      .advice 10 (idx + 1) x.2.inputRs] c o := by
  unfold procRow
  rw [valueAt_append, valueAt_enables _ _ (by simp [Op.value])]
  simp only [Option.or_none]
  rfl

/-- The plain columns of the processor table. -/
def procCol (c : Nat) (r : Register) : Fr :=
  match c with
  | 0 => r.cycle
  | 1 => r.current_instruction
  | 2 => r.instruction_pointer
  | 3 => r.next_instruction
  | 4 => r.memory_pointer
  | 5 => r.memory_value
  | _ => r.memory_value_inverse

/-- The running columns of the processor table. -/
def procRun (c : Nat) (a : ProcAcc) : Fr :=
  match c with
  | 7 => a.memPrp
  | 8 => a.instPrp
  | 9 => a.outputRs
  | _ => a.inputRs

theorem procRow_plain (c o : Nat) (hc : c ≤ 6) : valueAt (procRow pCfg len idx x.1 x.2) c o =
    if o = idx + 0 then some (procCol c x.1) else none := by
  rw [procRow_value]
  rcases c with _ | _ | _ | _ | _ | _ | _ | c
  case succ.succ.succ.succ.succ.succ.succ => omega
  all_goals simp [valueAt, Op.value, procCol]

theorem procRow_run (c o : Nat) (hc : 7 ≤ c ∧ c ≤ 10) : valueAt (procRow pCfg len idx x.1 x.2) c o =
    if o = idx + 1 then some (procRun c x.2) else none := by
  rw [procRow_value]
  obtain ⟨h1, h2⟩ := hc
  obtain rfl | rfl | rfl | rfl : c = 7 ∨ c = 8 ∨ c = 9 ∨ c = 10 := by omega
  all_goals simp [valueAt, Op.value, procRun]

theorem procRow_sel (s o : Nat) (hs : s = 0 ∨ s = 1 ∨ s = 4) :
    selAt (procRow pCfg len idx x.1 x.2) s o = (decide (o = idx) && true) := by
  unfold procRow
  rw [selAt_append]
  by_cases h : idx < len - 1
  · rw [if_pos h]
    rcases hs with rfl | rfl | rfl <;> simp [selAt, Op.enables, pCfg]
  · rw [if_neg h]
    rcases hs with rfl | rfl | rfl <;> simp [selAt, Op.enables, pCfg]

theorem procRow_sel' (s o : Nat) (hs : s = 2 ∨ s = 5) :
    selAt (procRow pCfg len idx x.1 x.2) s o = (decide (o = idx) && decide (idx < len - 1)) := by
  unfold procRow
  rw [selAt_append]
  by_cases h : idx < len - 1
  · rw [if_pos h]
    rcases hs with rfl | rfl <;> simp [selAt, Op.enables, pCfg, h]
  · rw [if_neg h]
    rcases hs with rfl | rfl <;> simp [selAt, Op.enables, pCfg, h]

theorem procRow_sel3 (o : Nat) : selAt (procRow pCfg len idx x.1 x.2) 3 o = false := by
  unfold procRow
  rw [selAt_append]
  by_cases h : idx < len - 1
  · rw [if_pos h]; simp [selAt, Op.enables, pCfg]
  · rw [if_neg h]; simp [selAt, Op.enables, pCfg]

end proc

/-- The first values of the processor table's running columns. -/
def procInit : ProcAcc := ⟨3, 9, 0, 0⟩

/-- The processor region in closed form. -/
structure ProcForm (ch : Nat → Fr) (rows : List Register) (as : List ProcAcc) (p : List Op) :
    Prop where
  accs : procAccs cCfg ch procInit rows = .ok as
  len : as.length = rows.length
  plain : ∀ c o, c ≤ 6 → valueAt p c o = (rows[o]?).map (procCol c)
  run : ∀ c o, 7 ≤ c ∧ c ≤ 10 → valueAt p c o = ((procInit :: as)[o]?).map (procRun c)
  sel : ∀ s o, s = 0 ∨ s = 1 ∨ s = 4 → selAt p s o = decide (o < rows.length)
  selStep : ∀ s o, s = 2 ∨ s = 5 → selAt p s o = decide (o < rows.length - 1)
  selFirst : ∀ o, selAt p 3 o = decide (o = 0)

theorem procAccs_len {ch : Nat → Fr} : ∀ {rows : List Register} {a : ProcAcc} {as : List ProcAcc},
    procAccs cCfg ch a rows = .ok as → as.length = rows.length := by
  intro rows
  induction rows with
  | nil => intro a as h; cases h; rfl
  | cons r rows ih =>
    intro a as h
    unfold procAccs at h
    rw [bind_ok] at h
    obtain ⟨a', -, h⟩ := h
    rw [bind_ok] at h
    obtain ⟨as', h1, h2⟩ := h
    cases h2
    simp [ih h1]

theorem zip_getElem? {α β : Type} {xs : List α} {ys : List β} (h : ys.length = xs.length) (o : Nat) :
    ((xs.zip ys)[o]?).map Prod.fst = xs[o]? ∧ ((xs.zip ys)[o]?).map Prod.snd = ys[o]? := by
  constructor
  · rw [← List.getElem?_map, List.map_fst_zip (by omega)]
  · rw [← List.getElem?_map, List.map_snd_zip (by omega)]

theorem procOps_form {ch : Nat → Fr} {rows : List Register} {p : List Op}
    (h : procOps pCfg cCfg ch rows = .ok p) : ∃ as, ProcForm ch rows as p := by
  unfold procOps at h
  rw [bind_ok] at h
  obtain ⟨as, ha, h⟩ := h
  cases h
  have hlen := procAccs_len ha
  have hz := zip_getElem? hlen
  refine ⟨as, ha, hlen, ?_, ?_, ?_, ?_, ?_⟩
  · intro c o hc
    rw [valueAt_append,
      valueAt_rows (fun i (x : Register × ProcAcc) => procRow pCfg rows.length i x.1 x.2) c 0
        (fun x => procCol c x.1) (fun i x o => procRow_plain _ _ _ _ _ hc)]
    rw [if_neg (by omega), ← (hz o).1, Option.map_map]
    simp only [Nat.sub_zero, Nat.add_zero]
    have : valueAt [.advice pCfg.memPrp 0 cCfg.memPrpInit, .advice pCfg.instPrp 0 cCfg.instPrpInit,
        .advice pCfg.outputRs 0 0, .advice pCfg.inputRs 0 0, .enable pCfg.sB 0] c o = none := by
      simp [valueAt, Op.value, pCfg, show c ≠ 7 by omega, show c ≠ 8 by omega, show c ≠ 9 by omega,
        show c ≠ 10 by omega]
    rw [this]
    simp
    rfl
  · intro c o hc
    rw [valueAt_append,
      valueAt_rows (fun i (x : Register × ProcAcc) => procRow pCfg rows.length i x.1 x.2) c 1
        (fun x => procRun c x.2) (fun i x o => procRow_run _ _ _ _ _ hc)]
    cases o with
    | zero =>
      rw [if_pos (by omega)]
      obtain rfl | rfl | rfl | rfl : c = 7 ∨ c = 8 ∨ c = 9 ∨ c = 10 := by omega
      all_goals simp [valueAt, Op.value, pCfg, procRun, procInit, cCfg]
    | succ o =>
      rw [if_neg (by omega), List.getElem?_cons_succ, ← (hz o).2, Option.map_map]
      have : valueAt [.advice pCfg.memPrp 0 cCfg.memPrpInit, .advice pCfg.instPrp 0 cCfg.instPrpInit,
          .advice pCfg.outputRs 0 0, .advice pCfg.inputRs 0 0, .enable pCfg.sB 0] c (o + 1) = none := by
        simp [valueAt, Op.value]
      rw [this]
      simp
      rfl
  · intro s o hs
    rw [selAt_append,
      selAt_rows (fun i (x : Register × ProcAcc) => procRow pCfg rows.length i x.1 x.2) s
        (fun _ => true) (fun i x o => procRow_sel _ _ _ _ _ hs)]
    have : selAt [.advice pCfg.memPrp 0 cCfg.memPrpInit, .advice pCfg.instPrp 0 cCfg.instPrpInit,
        .advice pCfg.outputRs 0 0, .advice pCfg.inputRs 0 0, .enable pCfg.sB 0] s o = false := by
      simp [selAt, Op.enables, pCfg]; omega
    rw [this]
    simp [hlen]
  · intro s o hs
    rw [selAt_append,
      selAt_rows (fun i (x : Register × ProcAcc) => procRow pCfg rows.length i x.1 x.2) s
        (fun i => decide (i < rows.length - 1)) (fun i x o => procRow_sel' _ _ _ _ _ hs)]
    have : selAt [.advice pCfg.memPrp 0 cCfg.memPrpInit, .advice pCfg.instPrp 0 cCfg.instPrpInit,
        .advice pCfg.outputRs 0 0, .advice pCfg.inputRs 0 0, .enable pCfg.sB 0] s o = false := by
      simp [selAt, Op.enables, pCfg]; omega
    rw [this]
    simp [hlen]
    omega
  · intro o
    rw [selAt_append,
      selAt_rows (fun i (x : Register × ProcAcc) => procRow pCfg rows.length i x.1 x.2) 3
        (fun _ => false) (fun i x o => by rw [procRow_sel3]; simp)]
    simp [selAt, Op.enables, pCfg]

/-! Memory table. -/

theorem memAccs_len {ch : Nat → Fr} : ∀ (rows : List MemRow) (a : Fr),
    (memAccs cCfg ch a rows).length = rows.length := by
  intro rows
  induction rows with
  | nil => intro a; rfl
  | cons r rows ih => intro a; simp [memAccs, ih]

/-- The plain columns of the memory table. -/
def memCol (c : Nat) (r : MemRow) : Fr :=
  match c with
  | 11 => r.cycle
  | 12 => r.memory_pointer
  | _ => r.memory_value

/-- The memory region in closed form. -/
structure MemForm (ch : Nat → Fr) (rows : List MemRow) (m : List Op) : Prop where
  plain : ∀ c o, 11 ≤ c ∧ c ≤ 13 → valueAt m c o = (rows[o]?).map (memCol c)
  run : ∀ o, valueAt m 14 o = ((3 : Fr) :: memAccs cCfg ch 3 rows)[o]?
  sel : ∀ o, selAt m 7 o = decide (o < rows.length)
  selStep : ∀ o, selAt m 6 o = decide (o < rows.length - 1)

theorem memOps_form (ch : Nat → Fr) (rows : List MemRow) : MemForm ch rows (memOps mCfg cCfg ch rows) := by
  have hlen := memAccs_len (ch := ch) rows 3
  have hz := zip_getElem? hlen
  have e : memOps mCfg cCfg ch rows = [.advice 14 0 3] ++
      ((rows.zip (memAccs cCfg ch 3 rows)).zipIdx.flatMap fun x =>
        memRow mCfg rows.length x.2 x.1.1 x.1.2) := rfl
  have hv : ∀ (idx : Nat) (x : MemRow × Fr) (c o : Nat),
      valueAt (memRow mCfg rows.length idx x.1 x.2) c o =
      valueAt [.enable ⟨7, true⟩ idx, .advice 11 idx x.1.cycle, .advice 12 idx x.1.memory_pointer,
        .advice 13 idx x.1.memory_value, .advice 14 (idx + 1) x.2] c o := by
    intro idx x c o
    unfold memRow
    rw [valueAt_append, valueAt_enables _ _ (by simp [Op.value])]
    simp only [Option.or_none]
    rfl
  refine ⟨?_, ?_, ?_, ?_⟩
  · intro c o hc
    rw [e, valueAt_append,
      valueAt_rows (fun i (x : MemRow × Fr) => memRow mCfg rows.length i x.1 x.2) c 0
        (fun x => memCol c x.1) (fun i x o => by
          rw [hv]
          obtain rfl | rfl | rfl : c = 11 ∨ c = 12 ∨ c = 13 := by omega
          all_goals simp [valueAt, Op.value, memCol])]
    rw [if_neg (by omega), ← (hz o).1, Option.map_map, valueAt_single, if_neg (by omega)]
    simp
    rfl
  · intro o
    rw [e, valueAt_append,
      valueAt_rows (fun i (x : MemRow × Fr) => memRow mCfg rows.length i x.1 x.2) 14 1
        (fun x => x.2) (fun i x o => by rw [hv]; simp [valueAt, Op.value])]
    cases o with
    | zero => simp [valueAt, Op.value]
    | succ o =>
      rw [if_neg (by omega), List.getElem?_cons_succ, ← (hz o).2, valueAt_single, if_neg (by omega)]
      simp
  · intro o
    rw [e, selAt_append,
      selAt_rows (fun i (x : MemRow × Fr) => memRow mCfg rows.length i x.1 x.2) 7
        (fun _ => true) (fun i x o => by
          unfold memRow
          rw [selAt_append]
          by_cases h : i < rows.length - 1
          · rw [if_pos h]; simp [selAt, Op.enables, mCfg]
          · rw [if_neg h]; simp [selAt, Op.enables, mCfg])]
    simp [selAt, Op.enables, hlen]
  · intro o
    rw [e, selAt_append,
      selAt_rows (fun i (x : MemRow × Fr) => memRow mCfg rows.length i x.1 x.2) 6
        (fun i => decide (i < rows.length - 1)) (fun i x o => by
          unfold memRow
          rw [selAt_append]
          by_cases h : i < rows.length - 1
          · rw [if_pos h]; simp [selAt, Op.enables, mCfg, h]
          · rw [if_neg h]; simp [selAt, Op.enables, mCfg, h])]
    simp [selAt, Op.enables, hlen]
    omega

/-! Instruction table. -/

theorem instAccs_len {ch : Nat → Fr} : ∀ (rows : List InstrRow) (a : Fr × Fr),
    (instAccs cCfg ch a rows).length = rows.length := by
  intro rows
  induction rows with
  | nil => intro a; rfl
  | cons r rows ih =>
    intro a
    obtain ⟨p, s⟩ := a
    simp only [instAccs, List.length_cons, ih]

/-- The plain columns of the instruction table. -/
def instCol (c : Nat) (r : InstrRow) : Fr :=
  match c with
  | 15 => r.instruction_pointer
  | 16 => r.current_instruction
  | _ => r.next_instruction

/-- The instruction region in closed form. -/
structure InstForm (ch : Nat → Fr) (rows : List InstrRow) (m : List Op) : Prop where
  plain : ∀ c o, 15 ≤ c ∧ c ≤ 17 → valueAt m c o = (rows[o]?).map (instCol c)
  prp : ∀ o, valueAt m 18 o = (((9 : Fr), (0 : Fr)) :: instAccs cCfg ch (9, 0) rows)[o]?.map Prod.fst
  rs : ∀ o, valueAt m 19 o = (((9 : Fr), (0 : Fr)) :: instAccs cCfg ch (9, 0) rows)[o]?.map Prod.snd
  selStep : ∀ s o, s = 8 ∨ s = 9 ∨ s = 11 → selAt m s o = decide (o < rows.length - 1)
  adhoc : ∀ o, selAt m 10 o = decide (o = rows.length)

theorem instOps_form (ch : Nat → Fr) (rows : List InstrRow) :
    InstForm ch rows (instOps iCfg cCfg ch rows) := by
  have hlen := instAccs_len (ch := ch) rows (9, 0)
  have hz := zip_getElem? hlen
  have e : instOps iCfg cCfg ch rows =
      [.advice 18 0 9, .advice 19 0 0, .enable ⟨10, true⟩ rows.length] ++
      ((rows.zip (instAccs cCfg ch (9, 0) rows)).zipIdx.flatMap fun x =>
        instRow iCfg rows.length x.2 x.1.1 x.1.2) := rfl
  have hv : ∀ (idx : Nat) (x : InstrRow × (Fr × Fr)) (c o : Nat),
      valueAt (instRow iCfg rows.length idx x.1 x.2) c o =
      valueAt [.advice 15 idx x.1.instruction_pointer, .advice 16 idx x.1.current_instruction,
        .advice 17 idx x.1.next_instruction, .advice 18 (idx + 1) x.2.1, .advice 19 (idx + 1) x.2.2]
        c o := by
    intro idx x c o
    unfold instRow
    rw [valueAt_append, valueAt_enables _ _ (by simp [Op.value])]
    simp only [Option.or_none]
    rfl
  have hpre : ∀ c o, 15 ≤ c ∧ c ≤ 17 →
      valueAt [.advice 18 0 9, .advice 19 0 0, .enable ⟨10, true⟩ rows.length] c o = none := by
    intro c o hc
    simp [valueAt, Op.value, show c ≠ 18 by omega, show c ≠ 19 by omega]
  have hpre' : ∀ c o,
      valueAt [.advice 18 0 9, .advice 19 0 0, .enable ⟨10, true⟩ rows.length] c (o + 1) = none := by
    intro c o
    simp [valueAt, Op.value]
  refine ⟨?_, ?_, ?_, ?_, ?_⟩
  · intro c o hc
    rw [e, valueAt_append,
      valueAt_rows (fun i (x : InstrRow × (Fr × Fr)) => instRow iCfg rows.length i x.1 x.2) c 0
        (fun x => instCol c x.1) (fun i x o => by
          rw [hv]
          obtain rfl | rfl | rfl : c = 15 ∨ c = 16 ∨ c = 17 := by omega
          all_goals simp [valueAt, Op.value, instCol])]
    rw [if_neg (by omega), ← (hz o).1, Option.map_map, hpre c o hc]
    simp
    rfl
  · intro o
    rw [e, valueAt_append,
      valueAt_rows (fun i (x : InstrRow × (Fr × Fr)) => instRow iCfg rows.length i x.1 x.2) 18 1
        (fun x => x.2.1) (fun i x o => by rw [hv]; simp [valueAt, Op.value])]
    cases o with
    | zero => simp [valueAt, Op.value]
    | succ o =>
      rw [if_neg (by omega), List.getElem?_cons_succ, ← (hz o).2, hpre', Option.map_map]
      simp
      rfl
  · intro o
    rw [e, valueAt_append,
      valueAt_rows (fun i (x : InstrRow × (Fr × Fr)) => instRow iCfg rows.length i x.1 x.2) 19 1
        (fun x => x.2.2) (fun i x o => by rw [hv]; simp [valueAt, Op.value])]
    cases o with
    | zero => simp [valueAt, Op.value]
    | succ o =>
      rw [if_neg (by omega), List.getElem?_cons_succ, ← (hz o).2, hpre', Option.map_map]
      simp
      rfl
  · intro s o hs
    rw [e, selAt_append,
      selAt_rows (fun i (x : InstrRow × (Fr × Fr)) => instRow iCfg rows.length i x.1 x.2) s
        (fun i => decide (i < rows.length - 1)) (fun i x o => by
          unfold instRow
          rw [selAt_append]
          by_cases h : i < rows.length - 1
          · rw [if_pos h]; rcases hs with rfl | rfl | rfl <;> simp [selAt, Op.enables, iCfg, h]
          · rw [if_neg h]; rcases hs with rfl | rfl | rfl <;> simp [selAt, Op.enables, h])]
    rcases hs with rfl | rfl | rfl <;> simp [selAt, Op.enables, hlen] <;> omega
  · intro o
    rw [e, selAt_append,
      selAt_rows (fun i (x : InstrRow × (Fr × Fr)) => instRow iCfg rows.length i x.1 x.2) 10
        (fun _ => false) (fun i x o => by
          unfold instRow
          rw [selAt_append]
          by_cases h : i < rows.length - 1
          · rw [if_pos h]; simp [selAt, Op.enables, iCfg]
          · rw [if_neg h]; simp [selAt, Op.enables])]
    simp [selAt, Op.enables]

/-! Output, input and program tables. -/

theorem rsAccs_len (gamma : Fr) : ∀ (vals : List Fr) (a : Fr),
    (rsAccs gamma a vals).length = vals.length := by
  intro vals
  induction vals with
  | nil => intro a; rfl
  | cons r rows ih => intro a; simp [rsAccs, ih]

/-- The output region in closed form. -/
structure OutForm (gamma : Fr) (vals : List Fr) (m : List Op) : Prop where
  plain : ∀ o, valueAt m 20 o = vals[o]?
  run : ∀ o, valueAt m 21 o = ((0 : Fr) :: rsAccs gamma 0 vals)[o]?
  sel : ∀ o, selAt m 12 o = decide (o < vals.length)

theorem outputOps_form (gamma : Fr) (vals : List Fr) :
    OutForm gamma vals (outputOps oCfg gamma vals) := by
  have hlen := rsAccs_len gamma vals 0
  have hz := zip_getElem? hlen
  have e : outputOps oCfg gamma vals = [.advice 21 0 0] ++
      ((vals.zip (rsAccs gamma 0 vals)).zipIdx.flatMap fun x =>
        [.enable ⟨12, true⟩ x.2, .advice 20 x.2 x.1.1, .advice 21 (x.2 + 1) x.1.2]) := rfl
  refine ⟨?_, ?_, ?_⟩
  · intro o
    rw [e, valueAt_append,
      valueAt_rows (fun i (x : Fr × Fr) =>
        [.enable ⟨12, true⟩ i, .advice 20 i x.1, .advice 21 (i + 1) x.2]) 20 0
        (fun x => x.1) (fun i x o => by simp [valueAt, Op.value])]
    rw [if_neg (by omega), ← (hz o).1, valueAt_single, if_neg (by omega)]
    simp
  · intro o
    rw [e, valueAt_append,
      valueAt_rows (fun i (x : Fr × Fr) =>
        [.enable ⟨12, true⟩ i, .advice 20 i x.1, .advice 21 (i + 1) x.2]) 21 1
        (fun x => x.2) (fun i x o => by simp [valueAt, Op.value])]
    cases o with
    | zero => simp [valueAt, Op.value]
    | succ o =>
      rw [if_neg (by omega), List.getElem?_cons_succ, ← (hz o).2, valueAt_single, if_neg (by omega)]
      simp
  · intro o
    rw [e, selAt_append,
      selAt_rows (fun i (x : Fr × Fr) =>
        [.enable ⟨12, true⟩ i, .advice 20 i x.1, .advice 21 (i + 1) x.2]) 12
        (fun _ => true) (fun i x o => by simp [selAt, Op.enables])]
    simp [selAt, Op.enables, hlen]

theorem fromInstances_ok {inst : List Fr} {len : Nat} {vals : List Fr}
    (h : fromInstances inst len = .ok vals) :
    vals = (inst.drop 1).take len ∧ vals.length = len := by
  unfold fromInstances at h
  split_ifs at h with h1 h2
  · cases h
    refine ⟨rfl, ?_⟩
    rw [List.length_take, List.length_drop]; omega
  · cases h
    subst h2
    simp

/-- The copies a table of instance values makes. -/
theorem copies_rows (f : Nat → Fr × Fr → List Op) (c inst : Nat)
    (h : ∀ i x, (f i x).flatMap Op.copies = [((Col.advice c, i), (Col.instance_ inst, i + 1))])
    (xs : List (Fr × Fr)) : ∀ k,
    ((xs.zipIdx k).flatMap fun x => f x.2 x.1).flatMap Op.copies =
      (List.range' k xs.length).map fun i => ((Col.advice c, i), (Col.instance_ inst, i + 1)) := by
  induction xs with
  | nil => intro k; rfl
  | cons x xs ih =>
    intro k
    rw [List.zipIdx_cons, List.flatMap_cons, List.flatMap_append, ih, h, List.length_cons,
      List.range'_succ, List.map_cons]
    rfl

/-- The input region in closed form. -/
structure InForm (inst : List Fr) (gamma : Fr) (len : Nat) (vals : List Fr) (m : List Op) : Prop where
  spec : vals = (inst.drop 1).take len
  vlen : vals.length = len
  plain : ∀ o, valueAt m 22 o = vals[o]?
  lenCell : valueAt m 23 0 = some (len : Fr)
  run : ∀ o, valueAt m 24 o = ((0 : Fr) :: rsAccs gamma 0 vals)[o]?
  sel : ∀ o, selAt m 13 o = decide (o < len)
  copies : m.flatMap Op.copies =
    (List.range len).map fun i => ((Col.advice 22, i), (Col.instance_ 1, i + 1))

theorem inputOps_form {inst : List Fr} {gamma : Fr} {len : Nat} {m : List Op}
    (h : inputOps nCfg 1 inst gamma len = .ok m) : ∃ vals, InForm inst gamma len vals m := by
  unfold inputOps at h
  rw [bind_ok] at h
  obtain ⟨vals, hvals, h⟩ := h
  cases h
  obtain ⟨hv1, hv2⟩ := fromInstances_ok hvals
  have hlen := rsAccs_len gamma vals 0
  have hz := zip_getElem? hlen
  have e : ([.advice nCfg.rs 0 0, .advice nCfg.inputLen 0 (len : Fr)] ++
      ((vals.zip (rsAccs gamma 0 vals)).zipIdx.flatMap fun x =>
      [.enable nCfg.sRs x.2, .fromInstance 1 (x.2 + 1) nCfg.val x.2 x.1.1,
       .advice nCfg.rs (x.2 + 1) x.1.2]) : List Op) =
      [.advice 24 0 0, .advice 23 0 (len : Fr)] ++
      ((vals.zip (rsAccs gamma 0 vals)).zipIdx.flatMap fun x =>
      [.enable ⟨13, true⟩ x.2, .fromInstance 1 (x.2 + 1) 22 x.2 x.1.1,
       .advice 24 (x.2 + 1) x.1.2]) := rfl
  rw [e]
  refine ⟨vals, hv1, hv2, ?_, ?_, ?_, ?_, ?_⟩
  · intro o
    rw [valueAt_append,
      valueAt_rows (fun i (x : Fr × Fr) =>
        [.enable ⟨13, true⟩ i, .fromInstance 1 (i + 1) 22 i x.1, .advice 24 (i + 1) x.2]) 22 0
        (fun x => x.1) (fun i x o => by simp [valueAt, Op.value])]
    rw [if_neg (by omega), ← (hz o).1]
    simp [valueAt, Op.value]
  · rw [valueAt_append, valueAt_none]
    · simp [valueAt, Op.value]
    · intro o ho r
      obtain ⟨x, -, hx⟩ := List.mem_flatMap.1 ho
      simp only [List.mem_cons, List.not_mem_nil, or_false] at hx
      rcases hx with rfl | rfl | rfl <;> simp [Op.value]
  · intro o
    rw [valueAt_append,
      valueAt_rows (fun i (x : Fr × Fr) =>
        [.enable ⟨13, true⟩ i, .fromInstance 1 (i + 1) 22 i x.1, .advice 24 (i + 1) x.2]) 24 1
        (fun x => x.2) (fun i x o => by simp [valueAt, Op.value])]
    cases o with
    | zero => simp [valueAt, Op.value]
    | succ o =>
      rw [if_neg (by omega), List.getElem?_cons_succ, ← (hz o).2]
      simp [valueAt, Op.value]
  · intro o
    rw [selAt_append,
      selAt_rows (fun i (x : Fr × Fr) =>
        [.enable ⟨13, true⟩ i, .fromInstance 1 (i + 1) 22 i x.1, .advice 24 (i + 1) x.2]) 13
        (fun _ => true) (fun i x o => by simp [selAt, Op.enables])]
    simp [selAt, Op.enables, hlen, hv2]
  · rw [List.flatMap_append, copies_rows (fun i (x : Fr × Fr) =>
        [.enable ⟨13, true⟩ i, .fromInstance 1 (i + 1) 22 i x.1, .advice 24 (i + 1) x.2]) 22 1
        (fun i x => by simp [Op.copies])]
    simp [Op.copies, hlen, hv2, List.range_eq_range']

/-- The program region in closed form. -/
structure ProgForm (inst : List Fr) (gamma : Fr) (len : Nat) (vals : List Fr) (m : List Op) : Prop where
  spec : vals = (inst.drop 1).take len
  vlen : vals.length = len
  plain : ∀ o, valueAt m 25 o = vals[o]?
  lenCell : valueAt m 26 0 = some (len : Fr)
  run : ∀ o, valueAt m 27 o = ((0 : Fr) :: rsAccs gamma 0 vals)[o]?
  sel : ∀ o, selAt m 14 o = decide (o < len)
  copies : m.flatMap Op.copies =
    (List.range len).map fun i => ((Col.advice 25, i), (Col.instance_ 0, i + 1))

theorem programOps_form {inst : List Fr} {gamma : Fr} {len : Nat} {m : List Op}
    (h : programOps gCfg 0 inst gamma len = .ok m) : ∃ vals, ProgForm inst gamma len vals m := by
  unfold programOps at h
  rw [bind_ok] at h
  obtain ⟨vals, hvals, h⟩ := h
  cases h
  obtain ⟨hv1, hv2⟩ := fromInstances_ok hvals
  have hlen := rsAccs_len gamma vals 0
  have hz := zip_getElem? hlen
  have e : ([.advice gCfg.programLen 0 (len : Fr), .advice gCfg.codeRs 0 0] ++
      ((vals.zip (rsAccs gamma 0 vals)).zipIdx.flatMap fun x =>
      [.enable gCfg.sRs x.2, .fromInstance 0 (x.2 + 1) gCfg.code x.2 x.1.1,
       .advice gCfg.codeRs (x.2 + 1) x.1.2]) : List Op) =
      [.advice 26 0 (len : Fr), .advice 27 0 0] ++
      ((vals.zip (rsAccs gamma 0 vals)).zipIdx.flatMap fun x =>
      [.enable ⟨14, true⟩ x.2, .fromInstance 0 (x.2 + 1) 25 x.2 x.1.1,
       .advice 27 (x.2 + 1) x.1.2]) := rfl
  rw [e]
  refine ⟨vals, hv1, hv2, ?_, ?_, ?_, ?_, ?_⟩
  · intro o
    rw [valueAt_append,
      valueAt_rows (fun i (x : Fr × Fr) =>
        [.enable ⟨14, true⟩ i, .fromInstance 0 (i + 1) 25 i x.1, .advice 27 (i + 1) x.2]) 25 0
        (fun x => x.1) (fun i x o => by simp [valueAt, Op.value])]
    rw [if_neg (by omega), ← (hz o).1]
    simp [valueAt, Op.value]
  · rw [valueAt_append, valueAt_none]
    · simp [valueAt, Op.value]
    · intro o ho r
      obtain ⟨x, -, hx⟩ := List.mem_flatMap.1 ho
      simp only [List.mem_cons, List.not_mem_nil, or_false] at hx
      rcases hx with rfl | rfl | rfl <;> simp [Op.value]
  · intro o
    rw [valueAt_append,
      valueAt_rows (fun i (x : Fr × Fr) =>
        [.enable ⟨14, true⟩ i, .fromInstance 0 (i + 1) 25 i x.1, .advice 27 (i + 1) x.2]) 27 1
        (fun x => x.2) (fun i x o => by simp [valueAt, Op.value])]
    cases o with
    | zero => simp [valueAt, Op.value]
    | succ o =>
      rw [if_neg (by omega), List.getElem?_cons_succ, ← (hz o).2]
      simp [valueAt, Op.value]
  · intro o
    rw [selAt_append,
      selAt_rows (fun i (x : Fr × Fr) =>
        [.enable ⟨14, true⟩ i, .fromInstance 0 (i + 1) 25 i x.1, .advice 27 (i + 1) x.2]) 14
        (fun _ => true) (fun i x o => by simp [selAt, Op.enables])]
    simp [selAt, Op.enables, hlen, hv2]
  · rw [List.flatMap_append, copies_rows (fun i (x : Fr × Fr) =>
        [.enable ⟨14, true⟩ i, .fromInstance 0 (i + 1) 25 i x.1, .advice 27 (i + 1) x.2]) 25 0
        (fun i x => by simp [Op.copies])]
    simp [Op.copies, hlen, hv2, List.range_eq_range']

end Verif
