import Verif.Lemmas.Word
import Verif.Lemmas.CompileLemmas

/-! Whole runs: the interpreter follows the word machine, which follows Brainfuck. -/

namespace Verif

namespace W

theorem halted_emb {code : List Nat} {bits : Nat} {w : W} (hist : List W) (hc : CodeOk code)
    (h : Inv code bits w) : (emb code bits w hist).halted = w.halted code := by
  unfold Interp.halted halted
  have hlen := hc.len
  have hip := h.ip
  show (!(Fr.lt (w.ip : Fr) ((cast code).length : Fr))) = _
  rw [length_cast, Fr.lt_cast (lt_P_of_lt (k := 64) (by omega) (by norm_num))
    (lt_P_of_lt (k := 64) (by omega) (by norm_num))]
  by_cases h : w.ip < code.length
  · simp [h]
  · simp [h]; omega

/-- Map a result of the word machine to a result of the interpreter. -/
def embResult (code : List Nat) (bits : Nat) :
    Option (Except Panic (W × List W)) → Option (Except Panic Interp)
  | none => none
  | some (.error e) => some (.error e)
  | some (.ok (w, hist)) => some (.ok (emb code bits w hist))

theorem loop_emb {code : List Nat} {bits : Nat} (hc : CodeOk code) (hb : bits < 64) :
    ∀ (n : Nat) (w : W) (hist : List W), Inv code bits w → w.cyc + n ≤ 2 ^ 62 →
      Interp.loop n (emb code bits w hist) = embResult code bits (loop code bits n w hist) := by
  intro n
  induction n with
  | zero =>
    intro w hist h _
    unfold Interp.loop loop
    rw [halted_emb hist hc h]
    split_ifs <;> rfl
  | succ n ih =>
    intro w hist h hn
    unfold Interp.loop loop
    rw [halted_emb hist hc h]
    cases hh : w.halted code with
    | true => rfl
    | false =>
      simp only [Bool.false_eq_true, if_false]
      rw [step_emb hist hc hb h (by omega) hh]
      cases hs : step code bits w with
      | error e => rfl
      | ok w' =>
        simp only [Except.map]
        exact ih w' _ (step_inv hc h hs hh) (by rw [step_cyc hs]; omega)

theorem start_emb {code inp : List Nat} {bits : Nat} (hne : 0 < code.length) :
    Interp.start (Interp.prepare bits (cast code) (cast inp)) =
      .ok (emb code bits (init inp) []) := by
  unfold Interp.start
  have hcode : (Interp.prepare bits (cast code) (cast inp)).code = cast code := rfl
  rw [hcode, idx_cast, idx_cast, length_cast]
  have h0 : code[0]? = some (code.getD 0 0) := by
    rw [List.getD_eq_getElem?_getD, List.getElem?_eq_getElem hne]; rfl
  rw [h0]
  by_cases h1 : code.length = 1
  · have e1 : code.getD 1 0 = 0 := by
      rw [List.getD_eq_getElem?_getD, List.getElem?_eq_none (by omega)]; rfl
    simp only [h1, decide_true, if_true]
    simp [bind, Except.bind, emb, Interp.prepare, Interp.setCode, Interp.setInput, Interp.setBits,
      Interp.new, init, cast, reg, ci, ni, mv]
    rw [List.getElem?_eq_none (by omega)]; simp
  · have e1 : code[1]? = some (code.getD 1 0) := by
      rw [List.getD_eq_getElem?_getD, List.getElem?_eq_getElem (by omega)]; rfl
    simp only [h1, decide_false]
    rw [e1]
    simp [bind, Except.bind, emb, Interp.prepare, Interp.setCode, Interp.setInput, Interp.setBits,
      Interp.new, init, cast, reg, ci, ni, mv]

/-- The whole run, in terms of the word machine. -/
theorem run_eq {code inp : List Nat} {bits : Nat} (hc : CodeOk code) (hb : bits < 64)
    (hi : ∀ v ∈ inp, v < 2 ^ bits) (n : Nat) (hn : n ≤ 2 ^ 62) :
    Interp.run n (Interp.prepare bits (cast code) (cast inp)) =
      match loop code bits n (init inp) [] with
      | none => none
      | some (.error e) => some (.error e)
      | some (.ok (w, hist)) => some (.ok (Interp.finish (emb code bits w hist))) := by
  unfold Interp.run
  rw [start_emb hc.nonempty]
  simp only
  rw [loop_emb hc hb n _ _ (init_inv hi) (by simpa [init] using hn)]
  cases loop code bits n (init inp) [] with
  | none => rfl
  | some r => cases r <;> rfl

/-- A complete trace of the word machine: the list of all states, the last one halted. -/
structure Trace (code : List Nat) (bits : Nat) (inp : List Nat) (ws : List W) : Prop where
  first : ws[0]? = some (init inp)
  next : ∀ (i : Nat) (a b : W), ws[i]? = some a → ws[i + 1]? = some b →
    a.halted code = false ∧ step code bits a = .ok b
  last : ∀ a : W, ws.getLast? = some a → a.halted code = true

theorem Trace.ne_nil {code inp : List Nat} {bits : Nat} {ws : List W}
    (h : Trace code bits inp ws) : ws ≠ [] := by
  rintro rfl; have := h.first; simp at this

/-- Result of the loop: the history is extended by a chain of steps to the final state. -/
theorem loop_ok {code : List Nat} {bits : Nat} :
    ∀ (n : Nat) (w w' : W) (hist hist' : List W),
      loop code bits n w hist = some (.ok (w', hist')) →
      ∃ vis : List W, hist' = hist ++ vis ∧ vis.length ≤ n ∧ w'.halted code = true ∧
        (vis ++ [w'])[0]? = some w ∧
        (∀ (i : Nat) (a b : W), (vis ++ [w'])[i]? = some a → (vis ++ [w'])[i + 1]? = some b →
          a.halted code = false ∧ step code bits a = .ok b) := by
  intro n
  induction n with
  | zero =>
    intro w w' hist hist' h
    unfold loop at h
    split_ifs at h with hh
    cases h
    refine ⟨[], by simp, by simp, hh, by simp, ?_⟩
    intro i a b _ hb
    simp at hb
  | succ n ih =>
    intro w w' hist hist' h
    unfold loop at h
    split_ifs at h with hh
    · cases h
      refine ⟨[], by simp, by simp, hh, by simp, ?_⟩
      intro i a b _ hb
      simp at hb
    · cases hs : step code bits w with
      | error e => rw [hs] at h; cases h
      | ok w1 =>
        rw [hs] at h
        obtain ⟨vis, h1, h2, h3, h4, h5⟩ := ih _ _ _ _ h
        refine ⟨w :: vis, by rw [h1]; simp, by simpa using h2, h3, by simp, ?_⟩
        intro i a b ha hb
        cases i with
        | zero =>
          simp at ha
          rw [List.cons_append, List.getElem?_cons_succ, h4] at hb
          cases hb
          subst ha
          exact ⟨by simpa using hh, hs⟩
        | succ i =>
          rw [List.cons_append, List.getElem?_cons_succ] at ha hb
          exact h5 i a b ha hb

/-- A finished run of the loop from the initial state is a complete trace. -/
theorem loop_trace {code inp : List Nat} {bits n : Nat} {w : W} {hist : List W}
    (h : loop code bits n (init inp) [] = some (.ok (w, hist))) :
    Trace code bits inp (hist ++ [w]) ∧ hist.length ≤ n := by
  obtain ⟨vis, h1, h2, h3, h4, h5⟩ := loop_ok _ _ _ _ _ h
  rw [List.nil_append] at h1
  subst h1
  refine ⟨⟨h4, h5, ?_⟩, h2⟩
  intro a ha
  rw [List.getLast?_append] at ha
  simp at ha
  subst ha; exact h3

/-- Conversely a chain to a halted state is what the loop finds, with enough fuel. -/
theorem loop_of_chain {code : List Nat} {bits : Nat} :
    ∀ (vis : List W) (w w' : W) (hist : List W) (n : Nat), vis.length ≤ n →
      w'.halted code = true → (vis ++ [w'])[0]? = some w →
      (∀ (i : Nat) (a b : W), (vis ++ [w'])[i]? = some a → (vis ++ [w'])[i + 1]? = some b →
          a.halted code = false ∧ step code bits a = .ok b) →
      loop code bits n w hist = some (.ok (w', hist ++ vis)) := by
  intro vis
  induction vis with
  | nil =>
    intro w w' hist n _ hh h0 _
    simp at h0
    subst h0
    cases n <;> simp [loop, hh]
  | cons v vis ih =>
    intro w w' hist n hn hh h0 hch
    simp at h0
    subst h0
    cases n with
    | zero => simp at hn
    | succ n =>
      have hlen : 0 < (vis ++ [w']).length := by simp
      obtain ⟨h1, h2⟩ := hch 0 v ((vis ++ [w'])[0]) (by simp)
        (by rw [List.cons_append, List.getElem?_cons_succ, List.getElem?_eq_getElem hlen])
      unfold loop
      rw [h1, h2]
      simp only [Bool.false_eq_true, if_false]
      rw [ih _ w' (hist ++ [v]) n (by simpa using hn) hh (List.getElem?_eq_getElem hlen) ?_]
      · simp
      · intro i a b ha hb
        exact hch (i + 1) a b (by rw [List.cons_append, List.getElem?_cons_succ]; exact ha)
          (by rw [List.cons_append, List.getElem?_cons_succ]; exact hb)

end W

namespace BFSim

open BF

/-- The word machine state simulates the Brainfuck state. -/
structure Rel (p : List Cmd) (t : State) (w : W) : Prop where
  pc : t.pc ≤ p.length
  ip : w.ip = pos p t.pc
  mp : w.mp = t.ptr
  tape : ∀ i, t.tape i = w.mem.getD i 0
  inp : w.inp = t.input
  out : w.out = t.output

theorem getD_set {l : List Nat} {i v : Nat} (h : i < l.length) (j : Nat) :
    (l.set i v).getD j 0 = if j = i then v else l.getD j 0 := by
  rw [List.getD_eq_getElem?_getD, List.getD_eq_getElem?_getD]
  by_cases hj : j = i
  · subst hj; rw [List.getElem?_set_self h]; simp
  · rw [List.getElem?_set_ne (Ne.symm hj)]; simp [hj]

theorem getD_push (l : List Nat) (j : Nat) : (l ++ [0]).getD j 0 = l.getD j 0 := by
  rw [List.getD_eq_getElem?_getD, List.getD_eq_getElem?_getD]
  by_cases hj : j < l.length
  · rw [List.getElem?_append_left hj]
  · rw [List.getElem?_append_right (by omega), List.getElem?_eq_none (l := l) (by omega)]
    by_cases h0 : j - l.length = 0
    · simp [h0]
    · rw [List.getElem?_eq_none (by simp; omega)]

/-- The word at the position of a command. -/
theorem ci_eq {p : List Cmd} {code : List Nat} (hc : CompiledTo p code) {t : State} {w : W}
    (h : Rel p t w) {c : Cmd} (hp : p[t.pc]? = some c) : w.ci code % 256 = byteOf c := by
  unfold W.ci
  rw [h.ip, List.getD_eq_getElem?_getD, hc.opcode _ _ hp]
  cases c <;> rfl

theorem pc_succ {p : List Cmd} {i : Nat} {c : Cmd} (hp : p[i]? = some c) : i + 1 ≤ p.length :=
  (List.getElem?_eq_some_iff.1 hp).1

/-- One Brainfuck step is one step of the word machine. -/
theorem step_sim {p : List Cmd} {code : List Nat} {bits : Nat} (hc : CompiledTo p code)
    {t : State} {w : W} (h : Rel p t w) (hi : W.Inv code bits w) {r : Except Err State}
    (hs : Step p bits t r) :
    match r with
    | .ok t' => ∃ w', W.step code bits w = .ok w' ∧ Rel p t' w'
    | .error .leftOfStart => W.step code bits w = .error .index
    | .error .endOfInput => W.step code bits w = .error .remove := by
  have hmv : w.mv = t.tape t.ptr := by unfold W.mv; rw [h.tape, h.mp]
  have hmp := hi.mp
  have hmvlt := W.mv_lt hi
  have hpos1 : ∀ {c : Cmd}, p[t.pc]? = some c → width c = 1 → w.ip + 1 = pos p (t.pc + 1) := by
    intro c hp hw; rw [pos_succ hp, hw, h.ip]
  have hpos2 : ∀ {c : Cmd}, p[t.pc]? = some c → width c = 2 → w.ip + 2 = pos p (t.pc + 1) := by
    intro c hp hw; rw [pos_succ hp, hw, h.ip]
  cases hs with
  | left hp hptr =>
    have e := ci_eq hc h hp
    simp only [byteOf] at e
    have hm := h.mp
    refine ⟨_, by unfold W.step; simp only; rw [if_pos e, if_neg (by omega)], ?_⟩
    exact ⟨pc_succ hp, hpos1 hp rfl, by simp [h.mp], h.tape, h.inp, h.out⟩
  | leftErr hp hptr =>
    have e := ci_eq hc h hp
    simp only [byteOf] at e
    have hm := h.mp
    simp only
    unfold W.step
    simp only
    rw [if_pos e, if_pos (by omega)]
  | right hp =>
    have e := ci_eq hc h hp
    simp only [byteOf] at e
    refine ⟨_, by unfold W.step; simp only [e]; rfl, ?_⟩
    refine ⟨pc_succ hp, hpos1 hp rfl, by simp [h.mp], ?_, h.inp, h.out⟩
    intro i
    simp only
    split_ifs
    · rw [getD_push]; exact h.tape i
    · exact h.tape i
  | inc hp =>
    have e := ci_eq hc h hp
    simp only [byteOf] at e
    refine ⟨_, by unfold W.step; simp only [e]; rfl, ?_⟩
    refine ⟨pc_succ hp, hpos1 hp rfl, h.mp, ?_, h.inp, h.out⟩
    intro i
    simp only
    rw [getD_set hmp]
    unfold setCell
    rw [h.mp]
    by_cases hi' : i = t.ptr
    · rw [if_pos hi', if_pos hi', ← hmv]
      by_cases hv : w.mv = 2 ^ bits - 1
      · rw [if_pos hv]
        have : w.mv + 1 = 2 ^ bits := by omega
        rw [this, Nat.mod_self]
      · rw [if_neg hv, Nat.mod_eq_of_lt (by omega)]
    · rw [if_neg hi', if_neg hi']; exact h.tape i
  | dec hp =>
    have e := ci_eq hc h hp
    simp only [byteOf] at e
    refine ⟨_, by unfold W.step; simp only [e]; rfl, ?_⟩
    refine ⟨pc_succ hp, hpos1 hp rfl, h.mp, ?_, h.inp, h.out⟩
    intro i
    simp only
    rw [getD_set hmp]
    unfold setCell
    rw [h.mp]
    by_cases hi' : i = t.ptr
    · rw [if_pos hi', if_pos hi', ← hmv]
      by_cases hv : w.mv = 0
      · rw [if_pos hv, hv, Nat.zero_add, Nat.mod_eq_of_lt (by omega)]
      · rw [if_neg hv]
        have : w.mv + (2 ^ bits - 1) = (w.mv - 1) + 2 ^ bits := by omega
        rw [this, Nat.add_mod_right, Nat.mod_eq_of_lt (by omega)]
    · rw [if_neg hi', if_neg hi']; exact h.tape i
  | get c rest hp hin =>
    have e := ci_eq hc h hp
    simp only [byteOf] at e
    have hwin : w.inp = c :: rest := by rw [h.inp, hin]
    refine ⟨_, by unfold W.step; simp only [e, hwin]; rfl, ?_⟩
    refine ⟨pc_succ hp, hpos1 hp rfl, h.mp, ?_, rfl, h.out⟩
    intro i
    simp only
    rw [getD_set hmp]
    unfold setCell
    rw [h.mp]
    by_cases hi' : i = t.ptr
    · rw [if_pos hi', if_pos hi']
    · rw [if_neg hi', if_neg hi']; exact h.tape i
  | getErr hp hin =>
    have e := ci_eq hc h hp
    simp only [byteOf] at e
    have hwin : w.inp = [] := by rw [h.inp, hin]
    simp only
    unfold W.step
    simp only [e, hwin]
    rfl
  | put hp =>
    have e := ci_eq hc h hp
    simp only [byteOf] at e
    refine ⟨_, by unfold W.step; simp only [e]; rfl, ?_⟩
    exact ⟨pc_succ hp, hpos1 hp rfl, h.mp, h.tape, h.inp, by simp [h.out, hmv]⟩
  | openSkip j hp hz hm =>
    have e := ci_eq hc h hp
    simp only [byteOf] at e
    have ht := hc.openTarget _ _ hm
    rw [← h.ip] at ht
    have hz' : w.mv = 0 := by rw [hmv]; exact hz
    refine ⟨_, by unfold W.step; simp only [e, hz', ht]; rfl, ?_⟩
    have := hm.lt
    exact ⟨by simp; omega, rfl, h.mp, h.tape, h.inp, h.out⟩
  | openEnter hp hz =>
    have e := ci_eq hc h hp
    simp only [byteOf] at e
    have hz' : ¬ w.mv = 0 := by rw [hmv]; exact hz
    refine ⟨_, by unfold W.step; simp only [e]; simp [hz']; rfl, ?_⟩
    exact ⟨pc_succ hp, hpos2 hp rfl, h.mp, h.tape, h.inp, h.out⟩
  | closeBack i hp hz hm =>
    have e := ci_eq hc h hp
    simp only [byteOf] at e
    have ht := hc.closeTarget _ _ hm
    rw [← h.ip] at ht
    have hz' : ¬ w.mv = 0 := by rw [hmv]; exact hz
    refine ⟨_, by unfold W.step; simp only [e, ht]; simp [hz']; rfl, ?_⟩
    have := hm.lt
    exact ⟨by simp; omega, rfl, h.mp, h.tape, h.inp, h.out⟩
  | closeLeave hp hz =>
    have e := ci_eq hc h hp
    simp only [byteOf] at e
    have hz' : w.mv = 0 := by rw [hmv]; exact hz
    refine ⟨_, by unfold W.step; simp only [e]; simp [hz']; rfl, ?_⟩
    exact ⟨pc_succ hp, hpos2 hp rfl, h.mp, h.tape, h.inp, h.out⟩

/-- In a balanced text the machine can always step unless it has halted. -/
theorem progress {p : List Cmd} (bits : Nat) (hb : Balanced p) (t : State) (h : t.pc < p.length) :
    ∃ r, Step p bits t r := by
  have hp : p[t.pc]? = some p[t.pc] := List.getElem?_eq_getElem h
  generalize p[t.pc] = c at hp
  cases c with
  | left =>
    by_cases h0 : t.ptr = 0
    · exact ⟨_, .leftErr hp h0⟩
    · exact ⟨_, .left hp (by omega)⟩
  | right => exact ⟨_, .right hp⟩
  | inc => exact ⟨_, .inc hp⟩
  | dec => exact ⟨_, .dec hp⟩
  | get =>
    cases hin : t.input with
    | nil => exact ⟨_, .getErr hp hin⟩
    | cons c rest => exact ⟨_, .get c rest hp hin⟩
  | put => exact ⟨_, .put hp⟩
  | open_ =>
    by_cases hz : t.tape t.ptr = 0
    · obtain ⟨j, hj⟩ := exists_close hb hp
      exact ⟨_, .openSkip j hp hz hj⟩
    · exact ⟨_, .openEnter hp hz⟩
  | close =>
    by_cases hz : t.tape t.ptr = 0
    · exact ⟨_, .closeLeave hp hz⟩
    · obtain ⟨i, hi⟩ := exists_open hb.1 hp
      exact ⟨_, .closeBack i hp hz hi⟩

/-- Halting corresponds. -/
theorem halted_iff {p : List Cmd} {code : List Nat} (hc : CompiledTo p code) {t : State} {w : W}
    (h : Rel p t w) : w.halted code = true ↔ Halted p t := by
  unfold W.halted Halted
  rw [h.ip, hc.length]
  simp only [decide_eq_true_eq]
  constructor
  · intro hle
    by_contra hlt
    have := pos_lt (p := p) (i := t.pc) (j := p.length) (by omega) (by omega)
    omega
  · intro hle
    exact pos_mono p hle

theorem rel_init (p : List Cmd) (inp : List Nat) : Rel p (BF.init inp) (W.init inp) where
  pc := by simp [BF.init]
  ip := by simp [BF.init, W.init, pos_zero]
  mp := rfl
  tape := by
    intro i
    cases i with
    | zero => rfl
    | succ i => simp [BF.init, W.init]
  inp := rfl
  out := rfl

end BFSim

end Verif
