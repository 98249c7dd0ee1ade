import Verif.Lemmas.TableSound
import Verif.Lemmas.HonestStep
import Verif.Lemmas.Run

/-! Rows that step correctly, fetch from the program and remember the cells follow the textbook
machine (helper for the property theorems). -/

namespace Verif

open BF Spec

/-- The cell values read by `,` in the first `m` rows. -/
def readsOf (R : Nat → Row) (m : Nat) : List Fr :=
  (List.range m).flatMap fun i => if (R i).ci = frOfByte GETCHAR then [(R (i + 1)).mv] else []

/-- The cell values written by `.` in the first `m` rows. -/
def writesOf (R : Nat → Row) (m : Nat) : List Fr :=
  (List.range m).flatMap fun i => if (R i).ci = frOfByte PUTCHAR then [(R i).mv] else []

theorem readsOf_succ (R : Nat → Row) (m : Nat) : readsOf R (m + 1) =
    readsOf R m ++ (if (R m).ci = frOfByte GETCHAR then [(R (m + 1)).mv] else []) := by
  unfold readsOf
  rw [List.range_succ, List.flatMap_append]
  simp

theorem writesOf_succ (R : Nat → Row) (m : Nat) : writesOf R (m + 1) =
    writesOf R m ++ (if (R m).ci = frOfByte PUTCHAR then [(R m).mv] else []) := by
  unfold writesOf
  rw [List.range_succ, List.flatMap_append]
  simp

theorem readsOf_prefix (R : Nat → Row) {k m : Nat} (h : k ≤ m) : readsOf R k <+: readsOf R m := by
  induction m with
  | zero => rw [Nat.le_zero.1 h]
  | succ m ih =>
    by_cases hk : k = m + 1
    · rw [hk]
    · rw [readsOf_succ]
      exact (ih (by omega)).trans (List.prefix_append _ _)

/-- What is needed of the rows. -/
structure RowsOk (ws input : List Nat) (L M : Nat) (R : Nat → Row) : Prop where
  start : (R 0).clk = 0 ∧ (R 0).ip = 0 ∧ (R 0).mp = 0 ∧ (R 0).mv = 0
  step : ∀ i, i + 1 < L → ∀ op ∈ OPCODES, (R i).ci = frOfByte op → RowStep op (R i) (R (i + 1))
  fetch : ∀ i, i + 1 < L → ∃ k, (R i).ip = ((k : Nat) : Fr) ∧ k < ws.length ∧
    (∀ v, ws[k]? = some v → (R i).ci = (v : Fr)) ∧
    (∀ v, ws[k + 1]? = some v → (R i).ni = (v : Fr))
  small : ∀ i, i < L → (R i).mp.val < M
  visit : ∀ i j, i < L → j + 1 < i → (R j).mp = (R i).mp →
    (∀ k, j < k → k < i → (R k).mp ≠ (R i).mp) → (R i).mv = (R j).mv
  fresh : ∀ i, i < L → (∀ j, j < i → (R j).mp ≠ (R i).mp) → (R i).mv = 0
  reads : readsOf R (L - 1) <+: input.map (fun (n : Nat) => (n : Fr))

/-- Row `i` shows state `t`. -/
structure Shows (p : List Cmd) (input : List Nat) (R : Nat → Row) (i : Nat) (t : State) : Prop where
  clk : (R i).clk = (i : Fr)
  ip : (R i).ip = (pos p t.pc : Fr)
  pc : t.pc ≤ p.length
  mp : (R i).mp = (t.ptr : Fr)
  ptr : t.ptr ≤ i
  mv : (R i).mv = (t.tape t.ptr : Fr)
  byte : ∀ c, t.tape c < 256
  mem : ∀ c, c < P → c ≠ t.ptr →
    (∃ j, j < i ∧ (R j).mp = (c : Fr) ∧ (∀ k, j < k → k ≤ i → (R k).mp ≠ (c : Fr)) ∧
      (R j).mv = (t.tape c : Fr)) ∨
    ((∀ j, j ≤ i → (R j).mp ≠ (c : Fr)) ∧ t.tape c = 0)
  inp : readsOf R i ++ t.input.map (fun (n : Nat) => (n : Fr)) = input.map (fun (n : Nat) => (n : Fr))
  inpByte : ∀ c ∈ t.input, c < 256
  out : writesOf R i = t.output.map (fun (n : Nat) => (n : Fr))

theorem getElem?_lt_of {α : Type} {l : List α} {i : Nat} {x : α} (h : l[i]? = some x) :
    i < l.length := (List.getElem?_eq_some_iff.1 h).1

theorem prefix_cons {a : List Fr} {v : Fr} {l : List Nat}
    (h : a ++ [v] <+: a ++ l.map (fun (n : Nat) => (n : Fr))) :
    ∃ c rest, l = c :: rest ∧ v = (c : Fr) := by
  rw [List.prefix_append_right_inj] at h
  cases l with
  | nil => simp at h
  | cons c rest =>
    refine ⟨c, rest, rfl, ?_⟩
    rw [List.map_cons, List.cons_prefix_cons] at h
    exact h.1

/-- One row further. -/
theorem shows_next {p : List Cmd} {ws input : List Nat} {L M : Nat} {R : Nat → Row}
    (hb : Balanced p) (hc : CompiledTo p ws) (hw : ws.length < P) (hM : M < P) (hL : L < P)
    (h : RowsOk ws input L M R) {i : Nat} (hi : i + 1 < L) {t : State}
    (hs : Shows p input R i t) : ∃ t', Step p 8 t (.ok t') ∧ Shows p input R (i + 1) t' := by
  have hbig : (1000 : Nat) < P := by decide +kernel
  obtain ⟨k, hk, hkl, hci, hni⟩ := h.fetch i hi
  have hposlt : pos p t.pc < P := by
    have := pos_mono p hs.pc
    rw [← hc.length] at this; omega
  have hkp : k = pos p t.pc := by
    rw [hs.ip] at hk
    exact ((Fr.cast_inj hposlt (by omega)).1 hk).symm
  subst hkp
  have hpc : t.pc < p.length := by
    by_contra hge
    have : t.pc = p.length := by have := hs.pc; omega
    rw [this, ← hc.length] at hkl; omega
  have hcmd : p[t.pc]? = some p[t.pc] := List.getElem?_eq_getElem hpc
  generalize p[t.pc] = c at hcmd
  have hci' := hci _ (hc.opcode _ _ hcmd)
  rw [opOf_fr] at hci'
  have hst := h.step i hi (opOf c) (opOf_mem c) hci'
  have hmvval : (R i).mv.val = t.tape t.ptr := by
    rw [hs.mv, Fr.val_cast (by have := hs.byte t.ptr; omega)]
  have hmv0 : (R i).mv = 0 ↔ t.tape t.ptr = 0 := by
    constructor
    · intro h0; rw [← hmvval, h0]; simp
    · intro h0; rw [hs.mv, h0]; simp
  have hpos : pos p (t.pc + 1) = pos p t.pc + width c := pos_succ hcmd
  have hclk : (R (i + 1)).clk = ((i + 1 : Nat) : Fr) := by
    rw [hst.clk, hs.clk]; push_cast; rfl
  -- the rows that keep the memory pointer
  have hmemKeep : ∀ t' : State, t'.ptr = t.ptr → (R (i + 1)).mp = (R i).mp →
      (∀ c, c ≠ t.ptr → t'.tape c = t.tape c) →
      ∀ c, c < P → c ≠ t'.ptr →
        (∃ j, j < i + 1 ∧ (R j).mp = (c : Fr) ∧ (∀ k, j < k → k ≤ i + 1 → (R k).mp ≠ (c : Fr)) ∧
          (R j).mv = (t'.tape c : Fr)) ∨
        ((∀ j, j ≤ i + 1 → (R j).mp ≠ (c : Fr)) ∧ t'.tape c = 0) := by
    intro t' h1 h2 h3 c hcP hcne
    rw [h1] at hcne
    have hne : (R (i + 1)).mp ≠ (c : Fr) := by
      rw [h2, hs.mp]
      intro he
      exact hcne ((Fr.cast_inj (by have := hs.ptr; omega) hcP).1 he).symm
    rw [h3 c hcne]
    rcases hs.mem c hcP hcne with ⟨j, a1, a2, a3, a4⟩ | ⟨a1, a2⟩
    · refine Or.inl ⟨j, by omega, a2, ?_, a4⟩
      intro k hk1 hk2
      by_cases hk3 : k = i + 1
      · rw [hk3]; exact hne
      · exact a3 k hk1 (by omega)
    · refine Or.inr ⟨?_, a2⟩
      intro j hj
      by_cases hj2 : j = i + 1
      · rw [hj2]; exact hne
      · exact a1 j (by omega)
  -- the rows that move it
  have hmemMove : ∀ q : Nat, q < P → q ≠ t.ptr → (R (i + 1)).mp = (q : Fr) →
      (R (i + 1)).mv = (t.tape q : Fr) ∧
      ∀ c, c < P → c ≠ q →
        (∃ j, j < i + 1 ∧ (R j).mp = (c : Fr) ∧ (∀ k, j < k → k ≤ i + 1 → (R k).mp ≠ (c : Fr)) ∧
          (R j).mv = (t.tape c : Fr)) ∨
        ((∀ j, j ≤ i + 1 → (R j).mp ≠ (c : Fr)) ∧ t.tape c = 0) := by
    intro q hq hqne hmp
    constructor
    · rcases hs.mem q hq hqne with ⟨j, a1, a2, a3, a4⟩ | ⟨a1, a2⟩
      · rw [← a4]
        refine h.visit (i + 1) j hi (by omega) (by rw [a2, hmp]) ?_
        intro k hk1 hk2
        rw [hmp]
        exact a3 k hk1 (by omega)
      · rw [a2, Nat.cast_zero]
        refine h.fresh (i + 1) hi ?_
        intro j hj
        rw [hmp]
        exact a1 j (by omega)
    · intro c hcP hcne
      have hne : (R (i + 1)).mp ≠ (c : Fr) := by
        rw [hmp]
        intro he
        exact hcne ((Fr.cast_inj hq hcP).1 he).symm
      by_cases hct : c = t.ptr
      · refine Or.inl ⟨i, by omega, by rw [hs.mp, hct], ?_, by rw [hs.mv, hct]⟩
        intro k hk1 hk2
        rw [show k = i + 1 by omega]; exact hne
      · rcases hs.mem c hcP hct with ⟨j, a1, a2, a3, a4⟩ | ⟨a1, a2⟩
        · refine Or.inl ⟨j, by omega, a2, ?_, a4⟩
          intro k hk1 hk2
          by_cases hk3 : k = i + 1
          · rw [hk3]; exact hne
          · exact a3 k hk1 (by omega)
        · refine Or.inr ⟨?_, a2⟩
          intro j hj
          by_cases hj2 : j = i + 1
          · rw [hj2]; exact hne
          · exact a1 j (by omega)
  have hnoread : opOf c ≠ GETCHAR → readsOf R (i + 1) = readsOf R i := by
    intro hne
    rw [readsOf_succ, if_neg, List.append_nil]
    rw [hci', frOfByte_inj]; exact hne
  have hnowrite : opOf c ≠ PUTCHAR → writesOf R (i + 1) = writesOf R i := by
    intro hne
    rw [writesOf_succ, if_neg, List.append_nil]
    rw [hci', frOfByte_inj]; exact hne
  have hptrP : t.ptr < P := by have := hs.ptr; omega
  have hset : ∀ v, v < 256 → ∀ c, setCell t.tape t.ptr v c < 256 := by
    intro v hv c
    unfold setCell
    by_cases hh : c = t.ptr
    · rw [if_pos hh]; exact hv
    · rw [if_neg hh]; exact hs.byte c
  have hself : ∀ v, setCell t.tape t.ptr v t.ptr = v := fun v => if_pos rfl
  have hother : ∀ v c, c ≠ t.ptr → setCell t.tape t.ptr v c = t.tape c := fun v c hh => if_neg hh
  have hbrk : ∀ {j j'}, Matches p j j' → j + 1 ≤ p.length ∧ j' + 1 ≤ p.length := by
    intro j j' hm
    have := getElem?_lt_of hm.2.1
    have := getElem?_lt_of hm.2.2.1
    omega
  cases c with
  | left =>
    have hmp : (R (i + 1)).mp = (R i).mp - 1 := hst.mp
    have hptr : 0 < t.ptr := by
      by_contra h0
      have h0' : t.ptr = 0 := by omega
      have hsm := h.small (i + 1) hi
      rw [hmp, hs.mp, h0', Nat.cast_zero] at hsm
      have e : ((0 : Fr) - 1) = ((P - 1 : Nat) : Fr) := by
        rw [Nat.cast_sub (by omega), ZMod.natCast_self, Nat.cast_one]
      rw [e, Fr.val_cast (by omega)] at hsm
      omega
    have hmp' : (R (i + 1)).mp = ((t.ptr - 1 : Nat) : Fr) := by
      rw [hmp, hs.mp, Nat.cast_sub (by omega)]; simp
    obtain ⟨m1, m2⟩ := hmemMove (t.ptr - 1) (by omega) (by omega) hmp'
    refine ⟨_, Step.left hcmd hptr, ?_⟩
    exact
    { clk := hclk
      ip := by
        rw [hst.ip]
        show (R i).ip + 1 = _
        rw [hs.ip, hpos]; push_cast; rfl
      pc := hpc
      mp := hmp'
      ptr := by show t.ptr - 1 ≤ i + 1; have := hs.ptr; omega
      mv := m1
      byte := hs.byte
      mem := m2
      inp := by rw [hnoread (by decide)]; exact hs.inp
      inpByte := hs.inpByte
      out := by rw [hnowrite (by decide)]; exact hs.out }
  | right =>
    have hmp : (R (i + 1)).mp = (R i).mp + 1 := hst.mp
    have hmp' : (R (i + 1)).mp = ((t.ptr + 1 : Nat) : Fr) := by
      rw [hmp, hs.mp]; push_cast; rfl
    obtain ⟨m1, m2⟩ := hmemMove (t.ptr + 1) (by have := hs.ptr; omega) (by omega) hmp'
    refine ⟨_, Step.right hcmd, ?_⟩
    exact
    { clk := hclk
      ip := by
        rw [hst.ip]
        show (R i).ip + 1 = _
        rw [hs.ip, hpos]; push_cast; rfl
      pc := hpc
      mp := hmp'
      ptr := by show t.ptr + 1 ≤ i + 1; have := hs.ptr; omega
      mv := m1
      byte := hs.byte
      mem := m2
      inp := by rw [hnoread (by decide)]; exact hs.inp
      inpByte := hs.inpByte
      out := by rw [hnowrite (by decide)]; exact hs.out }
  | inc =>
    have hmp : (R (i + 1)).mp = (R i).mp := hst.mp
    refine ⟨_, Step.inc hcmd, ?_⟩
    exact
    { clk := hclk
      ip := by
        rw [hst.ip]
        show (R i).ip + 1 = _
        rw [hs.ip, hpos]; push_cast; rfl
      pc := hpc
      mp := by rw [hmp]; exact hs.mp
      ptr := by show t.ptr ≤ i + 1; have := hs.ptr; omega
      mv := by
        show _ = ((setCell t.tape t.ptr ((t.tape t.ptr + 1) % 2 ^ 8) t.ptr : Nat) : Fr)
        rw [hself, ← Fr.cast_val (R (i + 1)).mv, hst.add rfl, hmvval]
      byte := hset _ (by omega)
      mem := hmemKeep _ rfl hmp (hother _)
      inp := by rw [hnoread (by decide)]; exact hs.inp
      inpByte := hs.inpByte
      out := by rw [hnowrite (by decide)]; exact hs.out }
  | dec =>
    have hmp : (R (i + 1)).mp = (R i).mp := hst.mp
    refine ⟨_, Step.dec hcmd, ?_⟩
    exact
    { clk := hclk
      ip := by
        rw [hst.ip]
        show (R i).ip + 1 = _
        rw [hs.ip, hpos]; push_cast; rfl
      pc := hpc
      mp := by rw [hmp]; exact hs.mp
      ptr := by show t.ptr ≤ i + 1; have := hs.ptr; omega
      mv := by
        show _ = ((setCell t.tape t.ptr ((t.tape t.ptr + (2 ^ 8 - 1)) % 2 ^ 8) t.ptr : Nat) : Fr)
        rw [hself, ← Fr.cast_val (R (i + 1)).mv, hst.sub rfl, hmvval]
      byte := hset _ (by omega)
      mem := hmemKeep _ rfl hmp (hother _)
      inp := by rw [hnoread (by decide)]; exact hs.inp
      inpByte := hs.inpByte
      out := by rw [hnowrite (by decide)]; exact hs.out }
  | get =>
    have hmp : (R (i + 1)).mp = (R i).mp := hst.mp
    have hread : readsOf R (i + 1) = readsOf R i ++ [(R (i + 1)).mv] := by
      rw [readsOf_succ, if_pos]
      rw [hci']; rfl
    have hpre := (readsOf_prefix R (show i + 1 ≤ L - 1 by omega)).trans h.reads
    rw [hread, ← hs.inp] at hpre
    obtain ⟨v, rest, e1, e2⟩ := prefix_cons hpre
    refine ⟨_, Step.get v rest hcmd e1, ?_⟩
    exact
    { clk := hclk
      ip := by
        rw [hst.ip]
        show (R i).ip + 1 = _
        rw [hs.ip, hpos]; push_cast; rfl
      pc := hpc
      mp := by rw [hmp]; exact hs.mp
      ptr := by show t.ptr ≤ i + 1; have := hs.ptr; omega
      mv := by
        show _ = ((setCell t.tape t.ptr v t.ptr : Nat) : Fr)
        rw [hself, e2]
      byte := hset _ (hs.inpByte v (by rw [e1]; simp))
      mem := hmemKeep _ rfl hmp (hother _)
      inp := by
        rw [hread, e2, List.append_assoc, ← hs.inp, e1]
        rfl
      inpByte := fun c hc => hs.inpByte c (by rw [e1]; exact List.mem_cons_of_mem _ hc)
      out := by rw [hnowrite (by decide)]; exact hs.out }
  | put =>
    have hmp : (R (i + 1)).mp = (R i).mp := hst.mp
    have hwrite : writesOf R (i + 1) = writesOf R i ++ [(R i).mv] := by
      rw [writesOf_succ, if_pos]
      rw [hci']; rfl
    refine ⟨_, Step.put hcmd, ?_⟩
    exact
    { clk := hclk
      ip := by
        rw [hst.ip]
        show (R i).ip + 1 = _
        rw [hs.ip, hpos]; push_cast; rfl
      pc := hpc
      mp := by rw [hmp]; exact hs.mp
      ptr := by show t.ptr ≤ i + 1; have := hs.ptr; omega
      mv := by rw [hst.keep (Or.inl rfl)]; exact hs.mv
      byte := hs.byte
      mem := hmemKeep _ rfl hmp (fun _ _ => rfl)
      inp := by rw [hnoread (by decide)]; exact hs.inp
      inpByte := hs.inpByte
      out := by rw [hwrite, hs.out, hs.mv, List.map_append]; rfl }
  | open_ =>
    have hmp : (R (i + 1)).mp = (R i).mp := hst.mp
    have hip : (R (i + 1)).ip = if (R i).mv = 0 then (R i).ni else (R i).ip + 2 := hst.ip
    have hmv : (R (i + 1)).mv = (R i).mv := hst.keep (Or.inr (Or.inl rfl))
    obtain ⟨j, hj⟩ := exists_close hb hcmd
    by_cases h0 : t.tape t.ptr = 0
    · refine ⟨_, Step.openSkip j hcmd h0 hj, ?_⟩
      rw [if_pos (hmv0.2 h0)] at hip
      exact
      { clk := hclk
        ip := by rw [hip]; exact hni _ (hc.openTarget _ _ hj)
        pc := (hbrk hj).2
        mp := by rw [hmp]; exact hs.mp
        ptr := by show t.ptr ≤ i + 1; have := hs.ptr; omega
        mv := by rw [hmv]; exact hs.mv
        byte := hs.byte
        mem := hmemKeep _ rfl hmp (fun _ _ => rfl)
        inp := by rw [hnoread (by decide)]; exact hs.inp
        inpByte := hs.inpByte
        out := by rw [hnowrite (by decide)]; exact hs.out }
    · refine ⟨_, Step.openEnter hcmd h0, ?_⟩
      rw [if_neg (fun hh => h0 (hmv0.1 hh))] at hip
      exact
      { clk := hclk
        ip := by rw [hip, hs.ip, hpos]; simp [width]
        pc := hpc
        mp := by rw [hmp]; exact hs.mp
        ptr := by show t.ptr ≤ i + 1; have := hs.ptr; omega
        mv := by rw [hmv]; exact hs.mv
        byte := hs.byte
        mem := hmemKeep _ rfl hmp (fun _ _ => rfl)
        inp := by rw [hnoread (by decide)]; exact hs.inp
        inpByte := hs.inpByte
        out := by rw [hnowrite (by decide)]; exact hs.out }
  | close =>
    have hmp : (R (i + 1)).mp = (R i).mp := hst.mp
    have hip : (R (i + 1)).ip = if (R i).mv = 0 then (R i).ip + 2 else (R i).ni := hst.ip
    have hmv : (R (i + 1)).mv = (R i).mv := hst.keep (Or.inr (Or.inr rfl))
    obtain ⟨j, hj⟩ := exists_open hb.1 hcmd
    by_cases h0 : t.tape t.ptr = 0
    · refine ⟨_, Step.closeLeave hcmd h0, ?_⟩
      rw [if_pos (hmv0.2 h0)] at hip
      exact
      { clk := hclk
        ip := by rw [hip, hs.ip, hpos]; simp [width]
        pc := hpc
        mp := by rw [hmp]; exact hs.mp
        ptr := by show t.ptr ≤ i + 1; have := hs.ptr; omega
        mv := by rw [hmv]; exact hs.mv
        byte := hs.byte
        mem := hmemKeep _ rfl hmp (fun _ _ => rfl)
        inp := by rw [hnoread (by decide)]; exact hs.inp
        inpByte := hs.inpByte
        out := by rw [hnowrite (by decide)]; exact hs.out }
    · refine ⟨_, Step.closeBack j hcmd h0 hj, ?_⟩
      rw [if_neg (fun hh => h0 (hmv0.1 hh))] at hip
      exact
      { clk := hclk
        ip := by rw [hip]; exact hni _ (hc.closeTarget _ _ hj)
        pc := (hbrk hj).1
        mp := by rw [hmp]; exact hs.mp
        ptr := by show t.ptr ≤ i + 1; have := hs.ptr; omega
        mv := by rw [hmv]; exact hs.mv
        byte := hs.byte
        mem := hmemKeep _ rfl hmp (fun _ _ => rfl)
        inp := by rw [hnoread (by decide)]; exact hs.inp
        inpByte := hs.inpByte
        out := by rw [hnowrite (by decide)]; exact hs.out }

/-- All rows. -/
theorem rows_genuine {p : List Cmd} {ws input : List Nat} {L M : Nat} {R : Nat → Row}
    (hb : Balanced p) (hc : CompiledTo p ws) (hw : ws.length < P) (hM : M < P) (hL : L < P)
    (hin : ∀ c ∈ input, c < 256) (h : RowsOk ws input L M R) :
    ∀ i, i < L → ∃ t, Steps p 8 i (BF.init input) t ∧ Shows p input R i t := by
  intro i
  induction i with
  | zero =>
    intro _
    refine ⟨_, Steps.zero _, ?_⟩
    exact
    { clk := by rw [h.start.1]; simp
      ip := by rw [h.start.2.1]; simp [BF.init, pos]
      pc := Nat.zero_le _
      mp := by rw [h.start.2.2.1]; simp [BF.init]
      ptr := Nat.zero_le _
      mv := by rw [h.start.2.2.2]; simp [BF.init]
      byte := fun _ => by simp [BF.init]
      mem := by
        intro c hcP hne
        refine Or.inr ⟨?_, rfl⟩
        intro j hj
        rw [Nat.le_zero.1 hj, h.start.2.2.1]
        intro he
        apply hne
        have : ((0 : Nat) : Fr) = (c : Fr) := by rw [Nat.cast_zero]; exact he
        exact ((Fr.cast_inj (by omega) hcP).1 this).symm
      inp := by simp [readsOf, BF.init]
      inpByte := hin
      out := by simp [writesOf, BF.init] }
  | succ i ih =>
    intro hi
    obtain ⟨t, h1, h2⟩ := ih (by omega)
    obtain ⟨t', h3, h4⟩ := shows_next hb hc hw hM hL h hi h2
    exact ⟨t', .succ h1 h3, h4⟩

end Verif
