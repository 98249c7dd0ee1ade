import Verif.Model.Compile
import Verif.Lemmas.Brackets
import Mathlib.Tactic.IntervalCases

/-! Helper lemmas on the compiler model. -/

namespace Verif

open BF

theorem opFilter_contains (b : UInt8) : opFilter.contains b = (cmdOf b).isSome := by
  simp only [opFilter, cmdOf, SHL, SHR, ADD, SUB, GETCHAR, PUTCHAR, LB, RB,
    List.contains_cons, List.contains_nil, Bool.or_false]
  by_cases h1 : b = 60
  · simp [h1]
  by_cases h2 : b = 62
  · simp [h2]
  by_cases h3 : b = 43
  · simp [h3]
  by_cases h4 : b = 45
  · simp [h4]
  by_cases h5 : b = 44
  · simp [h5]
  by_cases h6 : b = 46
  · simp [h6]
  by_cases h7 : b = 91
  · simp [h7]
  by_cases h8 : b = 93
  · simp [h8]
  simp [h1, h2, h3, h4, h5, h6, h7, h8]

theorem cmdOf_toNat {b : UInt8} {c : Cmd} (h : cmdOf b = some c) : b.toNat = byteOf c := by
  unfold cmdOf at h
  split at h
  · next hb => cases h; subst hb; rfl
  split at h
  · next hb => cases h; subst hb; rfl
  split at h
  · next hb => cases h; subst hb; rfl
  split at h
  · next hb => cases h; subst hb; rfl
  split at h
  · next hb => cases h; subst hb; rfl
  split at h
  · next hb => cases h; subst hb; rfl
  split at h
  · next hb => cases h; subst hb; rfl
  split at h
  · next hb => cases h; subst hb; rfl
  · simp at h

theorem cmdOf_eq_open {b : UInt8} {c : Cmd} (h : cmdOf b = some c) : b = LB ↔ c = .open_ := by
  constructor
  · rintro rfl; simp [cmdOf, LB] at h; exact h.symm
  · rintro rfl
    have := cmdOf_toNat h
    exact UInt8.toNat_inj.1 (by rw [this]; rfl)

theorem cmdOf_eq_close {b : UInt8} {c : Cmd} (h : cmdOf b = some c) : b = RB ↔ c = .close := by
  constructor
  · rintro rfl; simp [cmdOf, RB] at h; exact h.symm
  · rintro rfl
    have := cmdOf_toNat h
    exact UInt8.toNat_inj.1 (by rw [this]; rfl)

theorem compileStep_comment {checks : Bool} {s : CompileState} {b : UInt8} (h : cmdOf b = none) :
    compileStep checks s b = .ok s := by
  unfold compileStep; rw [opFilter_contains, h]; rfl

theorem compileStep_plain {checks : Bool} {s : CompileState} {b : UInt8} {c : Cmd}
    (h : cmdOf b = some c) (h1 : c ≠ .open_) (h2 : c ≠ .close) :
    compileStep checks s b = .ok { s with instrs := s.instrs ++ [byteOf c] } := by
  unfold compileStep
  rw [opFilter_contains, h]
  have hb1 : b ≠ LB := fun e => h1 ((cmdOf_eq_open h).1 e)
  have hb2 : b ≠ RB := fun e => h2 ((cmdOf_eq_close h).1 e)
  simp [hb1, hb2, cmdOf_toNat h]

theorem compileStep_open {checks : Bool} {s : CompileState} {b : UInt8}
    (h : cmdOf b = some .open_) :
    compileStep checks s b = (u16SubOne checks ((s.instrs.length + 2) % 65536)).map
      (fun top => { instrs := s.instrs ++ [91, 0], jstack := top :: s.jstack }) := by
  have hb : b = LB := (cmdOf_eq_open h).2 rfl
  subst hb
  unfold compileStep
  rw [opFilter_contains, h]
  have h91 : LB.toNat = 91 := rfl
  simp only [Option.isSome_some, Bool.not_true, Bool.false_eq_true, if_false, if_true, h91,
    List.append_assoc, List.cons_append, List.nil_append]
  have hl : (s.instrs ++ [91, 0]).length = s.instrs.length + 2 := by simp
  rw [hl]
  cases u16SubOne checks ((s.instrs.length + 2) % 65536) <;> rfl

theorem compileStep_close {checks : Bool} {s : CompileState} {b : UInt8} {top : Nat}
    {rest : List Nat} (h : cmdOf b = some .close) (hj : s.jstack = top :: rest) :
    compileStep checks s b = (u16AddOne checks top).bind (fun back =>
      if top < s.instrs.length + 2 then
        .ok { instrs := (s.instrs ++ [93, back]).set top ((s.instrs.length + 2) % 65536),
              jstack := rest }
      else .error .index) := by
  have hb : b = RB := (cmdOf_eq_close h).2 rfl
  subst hb
  unfold compileStep
  rw [opFilter_contains, h, hj]
  have h93 : RB.toNat = 93 := rfl
  have hne : ¬ (RB = LB) := by decide
  simp only [Option.isSome_some, Bool.not_true, Bool.false_eq_true, if_false, if_true, h93, hne,
    List.append_assoc, List.cons_append, List.nil_append]
  cases u16AddOne checks top with
  | error e => rfl
  | ok back => simp [bind, Except.bind]

theorem compileStep_close_empty {checks : Bool} {s : CompileState} {b : UInt8}
    (h : cmdOf b = some .close) (hj : s.jstack = []) :
    compileStep checks s b = .error .unwrap := by
  have hb : b = RB := (cmdOf_eq_close h).2 rfl
  subst hb
  unfold compileStep
  rw [opFilter_contains, h, hj]
  have hne : ¬ (RB = LB) := by decide
  simp [hne]

/-- Invariant of the compilation loop after the commands `p`. -/
structure CInv (p : List Cmd) (s : CompileState) (st : List Nat) : Prop where
  decomp : Decomp p st
  len : s.instrs.length = pos p p.length
  stack : s.jstack = st.map (fun i => pos p i + 1)
  opcode : ∀ i c, p[i]? = some c → s.instrs[pos p i]? = some (byteOf c)
  openT : ∀ i j, Matches p i j → s.instrs[pos p i + 1]? = some (pos p (j + 1))
  closeT : ∀ i j, Matches p i j → s.instrs[pos p j + 1]? = some (pos p (i + 1))
  unclosed : ∀ i ∈ st, s.instrs[pos p i + 1]? = some 0

theorem CInv.start : CInv [] { instrs := [], jstack := [] } [] where
  decomp := .nil .nil
  len := by simp [pos]
  stack := rfl
  opcode := by simp
  openT := by intro i j h; have := h.lt; simp at this
  closeT := by intro i j h; have := h.lt; simp at this
  unclosed := by simp

theorem Decomp.open_at {p : List Cmd} {st : List Nat} (h : Decomp p st) :
    ∀ i ∈ st, p[i]? = some .open_ := by
  induction h with
  | nil hb => simp
  | cons hq hb ih =>
    rename_i q b st
    intro i hi
    rcases List.mem_cons.1 hi with rfl | hi
    · simp
    · rw [List.getElem?_append_left (hq.lt_length i hi)]; exact ih i hi

theorem pos_append_len (p : List Cmd) (c : Cmd) :
    pos (p ++ [c]) (p ++ [c]).length = pos p p.length + width c := by
  have : (p ++ [c]).length = p.length + 1 := by simp
  rw [this, pos_succ (c := c) (by simp), pos_append_of_le _ _ (le_refl _)]

theorem getElem?_snoc_lt {p : List Cmd} {c d : Cmd} {i : Nat} (h : (p ++ [c])[i]? = some d) :
    (i < p.length ∧ p[i]? = some d) ∨ (i = p.length ∧ d = c) := by
  have hl := (List.getElem?_eq_some_iff.1 h).1
  simp at hl
  by_cases hi : i < p.length
  · left; rw [List.getElem?_append_left hi] at h; exact ⟨hi, h⟩
  · right
    have : i = p.length := by omega
    subst this; simp at h; exact ⟨rfl, h.symm⟩

/-- No bracket is closed by a final command other than `]`. -/
theorem matches_snoc_of_ne {p : List Cmd} {c : Cmd} (hc : c ≠ .close) {i j : Nat}
    (h : Matches (p ++ [c]) i j) : Matches p i j := by
  rcases getElem?_snoc_lt h.2.2.1 with ⟨hj, -⟩ | ⟨-, hd⟩
  · exact (matches_append hj).1 h
  · exact absurd hd.symm hc

theorem CInv.plain {p : List Cmd} {s : CompileState} {st : List Nat} (h : CInv p s st) {c : Cmd}
    (h1 : c ≠ .open_) (h2 : c ≠ .close) :
    CInv (p ++ [c]) { s with instrs := s.instrs ++ [byteOf c] } st := by
  have hw : width c = 1 := by cases c <;> simp_all [width]
  refine ⟨h.decomp.append_balanced (.single h1 h2), ?_, ?_, ?_, ?_, ?_, ?_⟩
  · rw [pos_append_len, hw]; simp [h.len]
  · rw [h.stack]
    apply List.map_congr_left
    intro i hi
    rw [pos_append_of_le _ _ (le_of_lt (h.decomp.lt_length i hi))]
  · intro i d hd
    rcases getElem?_snoc_lt hd with ⟨hi, hd⟩ | ⟨rfl, rfl⟩
    · rw [pos_append_of_le _ _ (le_of_lt hi)]
      have hlt := pos_lt (p := p) hi hi
      rw [List.getElem?_append_left (by rw [h.len]; exact hlt)]
      exact h.opcode i d hd
    · rw [pos_append_of_le _ _ (le_refl _), ← h.len]; simp
  · intro i j hm
    have hm := matches_snoc_of_ne h2 hm
    have := hm.lt
    rw [pos_append_of_le _ _ (by omega), pos_append_of_le _ _ (by omega)]
    have hv := h.openT i j hm
    have := (List.getElem?_eq_some_iff.1 hv).1
    rw [List.getElem?_append_left (by omega)]; exact hv
  · intro i j hm
    have hm := matches_snoc_of_ne h2 hm
    have := hm.lt
    rw [pos_append_of_le _ _ (by omega), pos_append_of_le _ _ (by omega)]
    have hv := h.closeT i j hm
    have := (List.getElem?_eq_some_iff.1 hv).1
    rw [List.getElem?_append_left (by omega)]; exact hv
  · intro i hi
    rw [pos_append_of_le _ _ (le_of_lt (h.decomp.lt_length i hi))]
    have hv := h.unclosed i hi
    have := (List.getElem?_eq_some_iff.1 hv).1
    rw [List.getElem?_append_left (by omega)]; exact hv

theorem CInv.open_ {p : List Cmd} {s : CompileState} {st : List Nat} (h : CInv p s st) :
    CInv (p ++ [.open_])
      { instrs := s.instrs ++ [91, 0], jstack := (s.instrs.length + 1) :: s.jstack }
      (p.length :: st) := by
  refine ⟨h.decomp.push, ?_, ?_, ?_, ?_, ?_, ?_⟩
  · rw [pos_append_len]; simp [h.len, width]
  · rw [List.map_cons, pos_append_of_le _ _ (le_refl _), h.len]
    show (_ :: s.jstack) = _
    rw [h.stack]
    congr 1
    apply List.map_congr_left
    intro i hi
    rw [pos_append_of_le _ _ (le_of_lt (h.decomp.lt_length i hi))]
  · intro i d hd
    rcases getElem?_snoc_lt hd with ⟨hi, hd⟩ | ⟨rfl, rfl⟩
    · rw [pos_append_of_le _ _ (le_of_lt hi)]
      have hlt := pos_lt (p := p) hi hi
      rw [List.getElem?_append_left (by rw [h.len]; exact hlt)]
      exact h.opcode i d hd
    · rw [pos_append_of_le _ _ (le_refl _), ← h.len]; simp [byteOf]
  · intro i j hm
    have hm := matches_snoc_of_ne (by decide) hm
    have := hm.lt
    rw [pos_append_of_le _ _ (by omega), pos_append_of_le _ _ (by omega)]
    have hv := h.openT i j hm
    have := (List.getElem?_eq_some_iff.1 hv).1
    rw [List.getElem?_append_left (by omega)]; exact hv
  · intro i j hm
    have hm := matches_snoc_of_ne (by decide) hm
    have := hm.lt
    rw [pos_append_of_le _ _ (by omega), pos_append_of_le _ _ (by omega)]
    have hv := h.closeT i j hm
    have := (List.getElem?_eq_some_iff.1 hv).1
    rw [List.getElem?_append_left (by omega)]; exact hv
  · intro i hi
    rcases List.mem_cons.1 hi with rfl | hi
    · rw [pos_append_of_le _ _ (le_refl _), ← h.len]
      rw [List.getElem?_append_right (by omega)]
      simp
    · rw [pos_append_of_le _ _ (le_of_lt (h.decomp.lt_length i hi))]
      have hv := h.unclosed i hi
      have := (List.getElem?_eq_some_iff.1 hv).1
      rw [List.getElem?_append_left (by omega)]; exact hv

theorem CInv.close {p : List Cmd} {s : CompileState} {i : Nat} {st : List Nat}
    (h : CInv p s (i :: st)) :
    CInv (p ++ [.close])
      { instrs := (s.instrs ++ [93, pos p i + 2]).set (pos p i + 1) (s.instrs.length + 2),
        jstack := st.map (fun i => pos p i + 1) } st := by
  have hopen := Decomp.open_at h.decomp i (by simp)
  have hil : i < p.length := h.decomp.lt_length i (by simp)
  have hposi : pos p (i + 1) = pos p i + 2 := by rw [pos_succ hopen]; rfl
  have hmle : pos p i + 2 ≤ s.instrs.length := by
    rw [h.len, ← hposi]; exact pos_mono p (by omega)
  -- reading a cell other than the patched one
  have hread : ∀ k v, s.instrs[k]? = some v → k ≠ pos p i + 1 →
      ((s.instrs ++ [93, pos p i + 2]).set (pos p i + 1) (s.instrs.length + 2))[k]? = some v := by
    intro k v hk hne
    have := (List.getElem?_eq_some_iff.1 hk).1
    rw [List.getElem?_set_ne (Ne.symm hne), List.getElem?_append_left this]; exact hk
  have hposlen : pos (p ++ [Cmd.close]) (p.length + 1) = s.instrs.length + 2 := by
    have := pos_append_len p .close
    simp only [List.length_append, List.length_cons, List.length_nil] at this
    rw [this, h.len]; rfl
  -- positions of commands are never operand positions
  have hneop : ∀ k c, p[k]? = some c → pos p k ≠ pos p i + 1 := by
    intro k c hk he
    have hkl := (List.getElem?_eq_some_iff.1 hk).1
    by_cases hki : k ≤ i
    · have := pos_mono p hki; omega
    · have := pos_mono p (show i + 1 ≤ k by omega); omega
  have hneop2 : ∀ k c, p[k]? = some c → k ≠ i → width c = 2 → pos p k + 1 ≠ pos p i + 1 := by
    intro k c hk hne hw he
    have hkl := (List.getElem?_eq_some_iff.1 hk).1
    rcases Nat.lt_or_gt_of_ne hne with hlt | hgt
    · have := pos_lt (p := p) hlt hkl; omega
    · have := pos_lt (p := p) hgt hil; omega
  refine ⟨h.decomp.pop, ?_, ?_, ?_, ?_, ?_, ?_⟩
  · rw [pos_append_len]; simp [h.len, width]
  · apply List.map_congr_left
    intro k hk
    rw [pos_append_of_le _ _ (le_of_lt (h.decomp.lt_length k (by simp [hk])))]
  · intro k d hd
    rcases getElem?_snoc_lt hd with ⟨hk, hd⟩ | ⟨rfl, rfl⟩
    · rw [pos_append_of_le _ _ (le_of_lt hk)]
      exact hread _ _ (h.opcode k d hd) (hneop k d hd)
    · rw [pos_append_of_le _ _ (le_refl _), ← h.len, List.getElem?_set_ne (by omega)]; simp [byteOf]
  · intro k j hm
    rcases getElem?_snoc_lt hm.2.2.1 with ⟨hj, -⟩ | ⟨rfl, -⟩
    · have hm := (matches_append hj).1 hm
      have := hm.lt
      rw [pos_append_of_le _ _ (by omega), pos_append_of_le _ _ (by omega)]
      refine hread _ _ (h.openT k j hm) (hneop2 k _ hm.2.1 ?_ rfl)
      rintro rfl
      have hv := h.openT k j hm
      rw [h.unclosed k (by simp)] at hv
      have hp0 : pos p (j + 1) = 0 := by simpa using hv.symm
      have := le_pos p (show j + 1 ≤ p.length by omega)
      omega
    · have hk := hm.unique_open h.decomp.matches_close
      subst hk
      rw [pos_append_of_le _ _ (by omega), hposlen, List.getElem?_set_self (by simp; omega)]
  · intro k j hm
    rcases getElem?_snoc_lt hm.2.2.1 with ⟨hj, -⟩ | ⟨rfl, -⟩
    · have hm := (matches_append hj).1 hm
      have := hm.lt
      rw [pos_append_of_le _ _ (by omega), pos_append_of_le _ _ (by omega)]
      refine hread _ _ (h.closeT k j hm) (hneop2 j _ hm.2.2.1 ?_ rfl)
      rintro rfl
      have := hm.2.2.1
      rw [hopen] at this; simp at this
    · have hk := hm.unique_open h.decomp.matches_close
      subst hk
      rw [pos_append_of_le _ _ (le_refl _), pos_append_of_le _ _ (by omega), hposi, ← h.len,
        List.getElem?_set_ne (by omega), List.getElem?_append_right (by omega)]
      simp
  · intro k hk
    have hkl := h.decomp.lt_length k (by simp [hk])
    rw [pos_append_of_le _ _ (le_of_lt hkl)]
    refine hread _ _ (h.unclosed k (by simp [hk])) (hneop2 k _ (Decomp.open_at h.decomp k (by simp [hk])) ?_ rfl)
    have := List.pairwise_cons.1 h.decomp.sorted
    have := this.1 k hk
    omega

theorem commands_cons (b : UInt8) (src : List UInt8) :
    commands (b :: src) = (cmdOf b).toList ++ commands src := by
  unfold commands
  cases h : cmdOf b <;> simp [h]

/-- Total width of a text. -/
def totalWidth (p : List Cmd) : Nat := pos p p.length

theorem totalWidth_append_le (p q : List Cmd) : totalWidth p ≤ totalWidth (p ++ q) := by
  unfold totalWidth
  rw [← pos_append_of_le p q (le_refl _)]
  exact pos_mono _ (by simp)

/-- The loop succeeds on text without underflow, up to 65535 words. -/
theorem compileLoop_ok (checks : Bool) (src : List UInt8) :
    ∀ (p : List Cmd) (s : CompileState) (st : List Nat), CInv p s st →
      NoUnderflow (p ++ commands src) → totalWidth (p ++ commands src) ≤ 65535 →
      ∃ s' st', compileLoop checks src s = .ok s' ∧ CInv (p ++ commands src) s' st' := by
  induction src with
  | nil =>
    intro p s st h _ _
    exact ⟨s, st, rfl, by simpa [commands] using h⟩
  | cons b src ih =>
    intro p s st h hnu hw
    rw [commands_cons] at hnu hw ⊢
    unfold compileLoop
    cases hc : cmdOf b with
    | none =>
      rw [hc] at hnu hw
      rw [compileStep_comment hc]
      exact ih p s st h (by simpa using hnu) (by simpa using hw)
    | some c =>
      rw [hc] at hnu hw
      have e : p ++ ((some c).toList ++ commands src) = (p ++ [c]) ++ commands src := by simp
      rw [e] at hnu hw ⊢
      have hwc : totalWidth (p ++ [c]) ≤ 65535 := le_trans (totalWidth_append_le _ _) hw
      unfold totalWidth at hwc
      rw [pos_append_len] at hwc
      have hlen := h.len
      by_cases h1 : c = .open_
      · subst h1
        rw [compileStep_open hc]
        have hsub : u16SubOne checks ((s.instrs.length + 2) % 65536) = .ok (s.instrs.length + 1) := by
          simp only [width] at hwc
          rw [Nat.mod_eq_of_lt (by omega)]
          simp [u16SubOne]
        rw [hsub]
        exact ih _ _ _ h.open_ hnu hw
      by_cases h2 : c = .close
      · subst h2
        cases st with
        | nil =>
          have := hnu.prefix.total
          rw [opens_append, closes_append, h.decomp.opens_eq] at this
          simp [opens, closes] at this
        | cons i st =>
          have hil : i < p.length := h.decomp.lt_length i (by simp)
          have hposi : pos p (i + 1) = pos p i + 2 := by
            rw [pos_succ (Decomp.open_at h.decomp i (by simp))]; rfl
          have hmle : pos p i + 2 ≤ s.instrs.length := by
            rw [h.len, ← hposi]; exact pos_mono p (by omega)
          have hst : s.jstack = (pos p i + 1) :: st.map (fun i => pos p i + 1) := by
            rw [h.stack]; rfl
          rw [compileStep_close hc hst]
          simp only [width] at hwc
          have hadd : u16AddOne checks (pos p i + 1) = .ok (pos p i + 2) := by
            simp [u16AddOne]; omega
          rw [hadd]
          simp only [Except.bind, if_pos (show pos p i + 1 < s.instrs.length + 2 by omega)]
          rw [Nat.mod_eq_of_lt (by omega)]
          exact ih _ _ _ h.close hnu hw
      · rw [compileStep_plain hc h1 h2]
        exact ih _ _ _ (h.plain h1 h2) hnu hw

/-- The emitted length never depends on the overflow mode. -/
theorem compileLoop_length (checks : Bool) (src : List UInt8) :
    ∀ (s s' : CompileState), compileLoop checks src s = .ok s' →
      s'.instrs.length = s.instrs.length + totalWidth (commands src) := by
  induction src with
  | nil => intro s s' h; simp [compileLoop] at h; subst h; simp [commands, totalWidth, pos]
  | cons b src ih =>
    intro s s' h
    unfold compileLoop at h
    have hcons : ∀ c : Cmd, totalWidth (c :: commands src) = width c + totalWidth (commands src) := by
      intro c; simp [totalWidth, pos]
    rw [commands_cons]
    cases hc : cmdOf b with
    | none =>
      rw [compileStep_comment hc] at h
      simpa using ih _ _ h
    | some c =>
      simp only [Option.toList_some, List.cons_append, List.nil_append, hcons]
      by_cases h1 : c = .open_
      · subst h1
        rw [compileStep_open hc] at h
        cases hs : u16SubOne checks ((s.instrs.length + 2) % 65536) with
        | error e => rw [hs] at h; cases h
        | ok t =>
          rw [hs] at h
          have := ih _ _ h
          rw [this]; simp [width]; omega
      by_cases h2 : c = .close
      · subst h2
        cases hj : s.jstack with
        | nil => rw [compileStep_close_empty hc hj] at h; cases h
        | cons t rest =>
          rw [compileStep_close hc hj] at h
          cases hs : u16AddOne checks t with
          | error e => rw [hs] at h; cases h
          | ok back =>
            rw [hs] at h
            by_cases hlt : t < s.instrs.length + 2
            · simp only [Except.bind, if_pos hlt] at h
              have := ih _ _ h
              rw [this]; simp [width]; omega
            · simp only [Except.bind, if_neg hlt] at h
              cases h
      · rw [compileStep_plain hc h1 h2] at h
        have := ih _ _ h
        have hw : width c = 1 := by cases c <;> simp_all [width]
        rw [this, hw]; simp; omega

/-- Stack discipline: success means no underflow, whatever the overflow mode. -/
theorem compileLoop_noUnderflow (checks : Bool) (src : List UInt8) :
    ∀ (p : List Cmd) (st : List Nat) (s s' : CompileState), Decomp p st →
      s.jstack.length = st.length → compileLoop checks src s = .ok s' →
      NoUnderflow p → NoUnderflow (p ++ commands src) := by
  induction src with
  | nil => intro p st s s' _ _ _ h; simpa [commands] using h
  | cons b src ih =>
    intro p st s s' hd hlen h hnu
    unfold compileLoop at h
    rw [commands_cons]
    cases hc : cmdOf b with
    | none =>
      rw [compileStep_comment hc] at h
      simpa using ih _ _ _ _ hd hlen h hnu
    | some c =>
      have e : p ++ ((some c).toList ++ commands src) = (p ++ [c]) ++ commands src := by simp
      rw [e]
      by_cases h1 : c = .open_
      · subst h1
        rw [compileStep_open hc] at h
        cases hs : u16SubOne checks ((s.instrs.length + 2) % 65536) with
        | error e => rw [hs] at h; cases h
        | ok t =>
          rw [hs] at h
          refine ih _ _ _ _ hd.push (by simp [hlen]) h (noUnderflow_append hnu fun n => ?_)
          have := hnu.total
          cases n <;> simp [opens, closes] at * <;> omega
      by_cases h2 : c = .close
      · subst h2
        cases hj : s.jstack with
        | nil => rw [compileStep_close_empty hc hj] at h; cases h
        | cons t rest =>
          rw [compileStep_close hc hj] at h
          cases st with
          | nil => rw [hj] at hlen; simp at hlen
          | cons i st =>
          cases hs : u16AddOne checks t with
          | error e => rw [hs] at h; cases h
          | ok back =>
            rw [hs] at h
            by_cases hlt : t < s.instrs.length + 2
            · simp only [Except.bind, if_pos hlt] at h
              refine ih _ _ _ _ hd.pop (by rw [hj] at hlen; simpa using hlen) h
                (noUnderflow_append hnu fun n => ?_)
              have := hd.opens_eq
              simp only [List.length_cons] at this
              cases n <;> simp [opens, closes] at * <;> omega
            · simp only [Except.bind, if_neg hlt] at h
              cases h
      · rw [compileStep_plain hc h1 h2] at h
        refine ih _ _ { s with instrs := s.instrs ++ [byteOf c] } _
          (hd.append_balanced (.single h1 h2)) hlen h (noUnderflow_append hnu fun n => ?_)
        have := hnu.total
        have := (Balanced.single h1 h2).1 n
        omega

/-- Without overflow checks the loop only fails by underflow of the bracket stack. -/
theorem compileLoop_release (src : List UInt8) :
    ∀ (p : List Cmd) (st : List Nat) (s : CompileState), Decomp p st →
      s.jstack.length = st.length → (∀ t ∈ s.jstack, t < s.instrs.length) →
      NoUnderflow (p ++ commands src) → ∃ s', compileLoop false src s = .ok s' := by
  induction src with
  | nil => intro p st s _ _ _ _; exact ⟨s, rfl⟩
  | cons b src ih =>
    intro p st s hd hlen hlt hnu
    unfold compileLoop
    rw [commands_cons] at hnu
    cases hc : cmdOf b with
    | none =>
      rw [compileStep_comment hc]
      rw [hc] at hnu
      exact ih _ _ _ hd hlen hlt (by simpa using hnu)
    | some c =>
      rw [hc] at hnu
      have e : p ++ ((some c).toList ++ commands src) = (p ++ [c]) ++ commands src := by simp
      rw [e] at hnu
      by_cases h1 : c = .open_
      · subst h1
        rw [compileStep_open hc]
        obtain ⟨t, ht, htl⟩ : ∃ t, u16SubOne false ((s.instrs.length + 2) % 65536) = .ok t ∧
            t < s.instrs.length + 2 := by
          unfold u16SubOne
          by_cases h0 : (s.instrs.length + 2) % 65536 = 0
          · exact ⟨65535, by simp [h0], by omega⟩
          · refine ⟨_, by rw [if_neg h0], ?_⟩
            have := Nat.mod_le (s.instrs.length + 2) 65536
            omega
        rw [ht]
        refine ih _ _ _ hd.push (by simp [hlen]) ?_ hnu
        intro u hu
        rcases List.mem_cons.1 hu with rfl | hu
        · simpa using htl
        · have := hlt u hu; simp; omega
      by_cases h2 : c = .close
      · subst h2
        cases st with
        | nil =>
          have := hnu.prefix.total
          rw [opens_append, closes_append, hd.opens_eq] at this
          simp [opens, closes] at this
        | cons i st =>
          cases hj : s.jstack with
          | nil => rw [hj] at hlen; simp at hlen
          | cons t rest =>
            rw [compileStep_close hc hj]
            obtain ⟨back, hback⟩ : ∃ back, u16AddOne false t = .ok back := by
              unfold u16AddOne; by_cases h : t = 65535 <;> simp [h]
            rw [hback]
            have ht := hlt t (by simp [hj])
            simp only [Except.bind, if_pos (show t < s.instrs.length + 2 by omega)]
            refine ih _ _ _ hd.pop (by rw [hj] at hlen; simpa using hlen) ?_ hnu
            intro u hu
            have := hlt u (by simp [hj, hu])
            simp; omega
      · rw [compileStep_plain hc h1 h2]
        refine ih _ _ _ (hd.append_balanced (.single h1 h2)) hlen ?_ hnu
        intro u hu
        have := hlt u hu; simp; omega

theorem compileToU16_ok {checks : Bool} {src : List UInt8} (h : NoUnderflow (commands src))
    (hw : totalWidth (commands src) ≤ 65535) :
    ∃ s st, compileToU16 checks src = .ok s.instrs ∧ CInv (commands src) s st := by
  obtain ⟨s, st, hs, hi⟩ := compileLoop_ok checks src [] _ [] CInv.start (by simpa using h)
    (by simpa using hw)
  refine ⟨s, st, ?_, by simpa using hi⟩
  unfold compileToU16
  rw [hs]; rfl

theorem compileToU16_length {checks : Bool} {src : List UInt8} {ws : List Nat}
    (h : compileToU16 checks src = .ok ws) : ws.length = totalWidth (commands src) := by
  unfold compileToU16 at h
  cases hs : compileLoop checks src { instrs := [], jstack := [] } with
  | error e => rw [hs] at h; cases h
  | ok s =>
    rw [hs] at h
    have := compileLoop_length _ _ _ _ hs
    cases h
    simpa using this

theorem compileToU16_noUnderflow {checks : Bool} {src : List UInt8} {ws : List Nat}
    (h : compileToU16 checks src = .ok ws) : NoUnderflow (commands src) := by
  unfold compileToU16 at h
  cases hs : compileLoop checks src { instrs := [], jstack := [] } with
  | error e => rw [hs] at h; cases h
  | ok s => simpa using compileLoop_noUnderflow _ _ [] [] _ _ (.nil .nil) rfl hs .nil

/-- Dropping operands from words laid out as `p` gives the bytes of `p`. -/
theorem dropOperands_layout : ∀ (p : List Cmd) (ws : List Nat),
    ws.length = totalWidth p → (∀ i c, p[i]? = some c → ws[pos p i]? = some (byteOf c)) →
    dropOperands ws = p.map byteOf := by
  intro p
  induction p with
  | nil => intro ws h _; simp [totalWidth, pos] at h; subst h; rfl
  | cons c p ih =>
    intro ws hl ho
    have hpos : ∀ i, pos (c :: p) (i + 1) = width c + pos p i := by intro i; simp [pos]
    have h0 := ho 0 c (by simp)
    rw [pos_zero] at h0
    have htot : totalWidth (c :: p) = width c + totalWidth p := by
      unfold totalWidth; rw [List.length_cons, hpos]
    cases ws with
    | nil => simp at h0
    | cons w ws =>
      simp at h0; subst h0
      have ho' : ∀ i d, p[i]? = some d → (byteOf c :: ws)[width c + pos p i]? = some (byteOf d) := by
        intro i d hd
        rw [← hpos]; exact ho (i + 1) d (by simpa using hd)
      rw [List.length_cons, htot] at hl
      by_cases hb : byteOf c = 91 ∨ byteOf c = 93
      · have hw : width c = 2 := by cases c <;> simp_all [byteOf, width]
        cases ws with
        | nil => simp at hl; omega
        | cons o ws =>
          unfold dropOperands
          rw [if_pos hb]
          simp only [List.map_cons, List.cons.injEq, true_and]
          refine ih ws (by simp at hl; omega) ?_
          intro i d hd
          have := ho' i d hd
          rw [hw, Nat.add_comm] at this
          simpa using this
      · have hw : width c = 1 := by cases c <;> simp_all [byteOf, width]
        unfold dropOperands
        rw [if_neg hb]
        simp only [List.map_cons, List.cons.injEq, true_and]
        refine ih ws (by omega) ?_
        intro i d hd
        have := ho' i d hd
        rw [hw, Nat.add_comm] at this
        simpa using this

/-- Every word of the layout is a command or the operand of a bracket. -/
theorem pos_cover (p : List Cmd) : ∀ {k : Nat}, k < pos p p.length →
    ∃ i c, p[i]? = some c ∧ (k = pos p i ∨ (width c = 2 ∧ k = pos p i + 1)) := by
  induction p with
  | nil => intro k h; simp [pos] at h
  | cons c p ih =>
    intro k h
    have hpos : ∀ i, pos (c :: p) (i + 1) = width c + pos p i := by intro i; simp [pos]
    rw [List.length_cons, hpos] at h
    by_cases hk : k < width c
    · refine ⟨0, c, by simp, ?_⟩
      rw [pos_zero]
      cases c <;> simp [width] at * <;> omega
    · obtain ⟨i, d, hi, hor⟩ := ih (k := k - width c) (by omega)
      refine ⟨i + 1, d, by simpa using hi, ?_⟩
      rw [hpos]
      rcases hor with h | ⟨h, h'⟩
      · left; omega
      · right; exact ⟨h, by omega⟩

/-- Compiling a run of `+`. -/
theorem compileLoop_plus (checks : Bool) (n : Nat) (rest : List UInt8) (s : CompileState) :
    compileLoop checks (List.replicate n 43 ++ rest) s =
      compileLoop checks rest { s with instrs := s.instrs ++ List.replicate n 43 } := by
  induction n generalizing s with
  | zero => simp
  | succ n ih =>
    rw [List.replicate_succ, List.cons_append]
    unfold compileLoop
    have hc : cmdOf 43 = some .inc := rfl
    rw [compileStep_plain hc (by decide) (by decide)]
    show compileLoop checks (List.replicate n 43 ++ rest) _ = _
    rw [ih]
    cases rest with
    | nil => simp [compileLoop, byteOf, List.replicate_succ]
    | cons r rest => simp [compileLoop, byteOf, List.replicate_succ]

end Verif
