import Verif.Lemmas.CompileLemmas

/-!
Properties C01–C04: the compiler `compile_to_u16`.
`checks` is the build mode: `true` = overflow checks on (debug), `false` = wrapping (release).
-/

namespace Verif.Props

open BF

/-- C01. Every source that compiles (to at most 65535 words) keeps exactly its commands, in order. -/
theorem C01_compile_keeps_commands (checks : Bool) (src : List UInt8) (ws : List Nat)
    (h : compileToU16 checks src = .ok ws) (hlen : ws.length ≤ 65535) :
    dropOperands ws = (commands src).map byteOf := by
  have hl := compileToU16_length h
  obtain ⟨s, st, hs, hi⟩ := compileToU16_ok (checks := checks) (compileToU16_noUnderflow h)
    (by rw [← hl]; exact hlen)
  rw [h] at hs
  cases hs
  exact dropOperands_layout _ _ hi.len hi.opcode

/-- C01. Bytes that are not commands have no effect at all: two sources with the same commands
compile to the same result (words or panic), in either build mode, whatever the length. -/
theorem C01_compile_ignores_comments (checks : Bool) (src src' : List UInt8)
    (h : commands src = commands src') :
    compileToU16 checks src = compileToU16 checks src' := by
  have key : ∀ (src : List UInt8) (s : CompileState), compileLoop checks src s =
      compileLoop checks (src.filter (fun b => (cmdOf b).isSome)) s := by
    intro src
    induction src with
    | nil => intro s; rfl
    | cons b src ih =>
      intro s
      cases hc : cmdOf b with
      | none =>
        rw [List.filter_cons_of_neg (by simp [hc])]
        conv_lhs => unfold compileLoop
        rw [compileStep_comment hc]
        exact ih s
      | some c =>
        rw [List.filter_cons_of_pos (by simp [hc])]
        unfold compileLoop
        congr 1
        funext s'
        exact ih s'
  have hf : ∀ src : List UInt8, (src.filter (fun b => (cmdOf b).isSome)).map UInt8.toNat =
      (commands src).map byteOf := by
    intro src
    induction src with
    | nil => rfl
    | cons b src ih =>
      rw [commands_cons]
      cases hc : cmdOf b with
      | none => rw [List.filter_cons_of_neg (by simp [hc])]; simpa using ih
      | some c =>
        rw [List.filter_cons_of_pos (by simp [hc])]
        simp [cmdOf_toNat hc, ih]
  have he : src.filter (fun b => (cmdOf b).isSome) = src'.filter (fun b => (cmdOf b).isSome) := by
    have : Function.Injective UInt8.toNat := fun a b h => UInt8.toNat_inj.1 h
    apply List.map_injective_iff.2 this
    rw [hf, hf, h]
  unfold compileToU16
  rw [key src, key src', he]

/-- C01. Two sources compiling to the same words (at most 65535) have the same commands. -/
theorem C01_compile_injective (checks : Bool) (src src' : List UInt8) (ws : List Nat)
    (h : compileToU16 checks src = .ok ws) (h' : compileToU16 checks src' = .ok ws)
    (hlen : ws.length ≤ 65535) : commands src = commands src' := by
  have e1 := C01_compile_keeps_commands checks src ws h hlen
  have e2 := C01_compile_keeps_commands checks src' ws h' hlen
  have hinj : Function.Injective byteOf := by
    intro a b; cases a <;> cases b <;> decide
  exact List.map_injective_iff.2 hinj (e1.symm.trans e2)

/-- C02. A balanced source of at most 65535 words compiles, in either build mode, and the result
has every command at its place and every jump operand just past the matching bracket. -/
theorem C02_jump_operands (checks : Bool) (src : List UInt8) (hb : Balanced (commands src))
    (hlen : pos (commands src) (commands src).length ≤ 65535) :
    ∃ ws, compileToU16 checks src = .ok ws ∧ CompiledTo (commands src) ws := by
  obtain ⟨s, st, hs, hi⟩ := compileToU16_ok (checks := checks) hb.1 hlen
  exact ⟨s.instrs, hs, hi.len, hi.opcode, hi.openT, hi.closeT⟩

/-- C02. In a balanced text every bracket has a partner, so the operands of `CompiledTo` are all
determined: nothing is left unspecified. -/
theorem C02_every_bracket_matched (p : List Cmd) (hb : Balanced p) (i : Nat) :
    (p[i]? = some .open_ → ∃ j, Matches p i j) ∧ (p[i]? = some .close → ∃ j, Matches p j i) :=
  ⟨fun h => exists_close hb h, fun h => exists_open hb.1 h⟩

/-- C02. `CompiledTo` fixes the compiled words of a balanced text uniquely. -/
theorem C02_words_unique (p : List Cmd) (hb : Balanced p) (ws ws' : List Nat)
    (h : CompiledTo p ws) (h' : CompiledTo p ws') : ws = ws' := by
  apply List.ext_getElem?
  intro k
  by_cases hk : k < pos p p.length
  · obtain ⟨i, c, hi, hor⟩ := pos_cover p hk
    rcases hor with rfl | ⟨hw, rfl⟩
    · rw [h.opcode i c hi, h'.opcode i c hi]
    · cases c <;> simp [width] at hw
      · obtain ⟨j, hj⟩ := exists_close hb hi
        rw [h.openTarget i j hj, h'.openTarget i j hj]
      · obtain ⟨j, hj⟩ := exists_open hb.1 hi
        rw [h.closeTarget j i hj, h'.closeTarget j i hj]
  · rw [List.getElem?_eq_none (by rw [h.length]; omega),
      List.getElem?_eq_none (by rw [h'.length]; omega)]

/-- C03 is false of the code: the unbalanced source `[` compiles, in either build mode. -/
theorem C03_refuted : ∃ src : List UInt8, ¬ Balanced (commands src) ∧
    ∀ checks, ∃ ws, compileToU16 checks src = .ok ws := by
  refine ⟨[91], ?_, ?_⟩
  · intro h
    have := h.2
    simp [commands, cmdOf, opens, closes] at this
  · intro checks
    cases checks <;> exact ⟨[91, 0], by decide⟩

/-- C03, the part that holds. In release mode, for all sources of any length, the compiler fails
exactly when some prefix closes more brackets than it opens. (Missing: unclosed `[` are accepted.) -/
theorem C03_reject_iff_underflow_partial (src : List UInt8) :
    (∃ e, compileToU16 false src = .error e) ↔ ¬ NoUnderflow (commands src) := by
  constructor
  · rintro ⟨e, he⟩ hnu
    obtain ⟨s, hs⟩ := compileLoop_release src [] [] { instrs := [], jstack := [] } (.nil .nil) rfl
      (by simp) (by simpa using hnu)
    unfold compileToU16 at he
    rw [hs] at he
    cases he
  · intro hnu
    cases h : compileToU16 false src with
    | error e => exact ⟨e, rfl⟩
    | ok ws => exact absurd (compileToU16_noUnderflow h) hnu

/-- C03, debug mode: the same for sources of at most 65535 words. -/
theorem C03_reject_iff_underflow_debug_partial (src : List UInt8)
    (hlen : pos (commands src) (commands src).length ≤ 65535) :
    (∃ e, compileToU16 true src = .error e) ↔ ¬ NoUnderflow (commands src) := by
  constructor
  · rintro ⟨e, he⟩ hnu
    obtain ⟨s, st, hs, -⟩ := compileToU16_ok (checks := true) hnu hlen
    rw [he] at hs
    cases hs
  · intro hnu
    cases h : compileToU16 true src with
    | error e => exact ⟨e, rfl⟩
    | ok ws => exact absurd (compileToU16_noUnderflow h) hnu

/-- The source of 65535 `+` followed by `[]`. -/
def longSource : List UInt8 := List.replicate 65535 43 ++ [91, 93]

theorem commands_longSource :
    commands longSource = List.replicate 65535 Cmd.inc ++ [.open_, .close] := by
  unfold longSource commands
  rw [List.filterMap_append, List.filterMap_replicate]
  rfl

theorem balanced_longSource : Balanced (commands longSource) := by
  rw [commands_longSource]
  refine Balanced.append ?_ ?_
  · have : ∀ n, Balanced (List.replicate n Cmd.inc) := by
      intro n
      induction n with
      | zero => exact .nil
      | succ n ih => exact (Balanced.single (c := .inc) (by decide) (by decide)).append ih
    exact this _
  · exact Balanced.wrap Balanced.nil

/-- The run on the long source, for a variable length. -/
theorem compile_long (checks : Bool) (n : Nat) (hn : n = 65535) :
    compileToU16 checks (List.replicate n 43 ++ [91, 93]) =
      .ok ((List.replicate n 43 ++ [91, 0, 93, 1]).set 0 3) := by
  unfold compileToU16
  rw [compileLoop_plus]
  simp only [List.nil_append]
  have hlen : (List.replicate n 43 : List Nat).length = n := List.length_replicate
  generalize (List.replicate n 43 : List Nat) = L at hlen
  unfold compileLoop
  rw [compileStep_open (by rfl)]
  have h1 : u16SubOne checks ((L.length + 2) % 65536) = .ok 0 := by
    rw [hlen, hn]; cases checks <;> rfl
  simp only [h1]
  show (compileLoop checks [93] { instrs := L ++ [91, 0], jstack := [0] } >>= _) = _
  unfold compileLoop
  rw [compileStep_close (top := 0) (rest := []) (by rfl) rfl]
  have h2 : u16AddOne checks 0 = .ok 1 := by cases checks <;> rfl
  simp only [h2, Except.bind]
  rw [if_pos (by simp)]
  have h3 : ((L ++ [91, 0]).length + 2) % 65536 = 3 := by
    rw [List.length_append, hlen, hn]; rfl
  simp only [h3, List.append_assoc, List.cons_append, List.nil_append]
  rfl

/-- C04 is false of the code: a balanced source of 65539 words is compiled, in either build mode
and without any panic, to words where the first command (`+`, 43) has been overwritten. -/
theorem C04_refuted : Balanced (commands longSource) ∧ ∀ checks, ∃ ws,
    compileToU16 checks longSource = .ok ws ∧ ws[0]? = some 3 ∧
    (commands longSource)[0]? = some .inc ∧ ¬ CompiledTo (commands longSource) ws := by
  refine ⟨balanced_longSource, fun checks => ?_⟩
  have h0 : (commands longSource)[0]? = some .inc := by
    rw [commands_longSource, List.getElem?_append_left (by rw [List.length_replicate]; omega),
      List.getElem?_replicate, if_pos (by omega)]
  have hrun := compile_long checks 65535 rfl
  generalize hL : (List.replicate 65535 43 ++ [91, 0, 93, 1] : List Nat) = L at hrun
  have hl : 0 < L.length := by
    rw [← hL, List.length_append, List.length_replicate]; omega
  refine ⟨_, hrun, ?_, h0, ?_⟩
  · rw [List.getElem?_set_self hl]
  · intro hc
    have := hc.opcode 0 .inc h0
    rw [pos_zero, List.getElem?_set_self hl] at this
    simp [byteOf] at this

/-- C04, the part that holds: any balanced source up to 65535 words compiles correctly.
(Missing: longer sources; `C04_refuted` shows they can be miscompiled silently.) -/
theorem C04_compile_correct_partial (checks : Bool) (src : List UInt8)
    (hb : Balanced (commands src)) (hlen : pos (commands src) (commands src).length ≤ 65535) :
    ∃ ws, compileToU16 checks src = .ok ws ∧ CompiledTo (commands src) ws :=
  C02_jump_operands checks src hb hlen

/-! Concrete cases. -/

/-- `a+[>[-]<]` : a comment, nested brackets. -/
example : compileToU16 true "a+[>[-]<]".toUTF8.toList =
    .ok [43, 91, 12, 62, 91, 9, 45, 93, 6, 60, 93, 3] := by decide +kernel

example : dropOperands [43, 91, 12, 62, 91, 9, 45, 93, 6, 60, 93, 3] =
    [43, 91, 62, 91, 45, 93, 60, 93] := by decide

example : Balanced (commands [43, 91, 62, 91, 45, 93, 60, 93]) ∧
    pos (commands [43, 91, 62, 91, 45, 93, 60, 93]) 8 ≤ 65535 := by
  refine ⟨?_, by decide⟩
  have h : commands [43, 91, 62, 91, 45, 93, 60, 93] =
      [.inc] ++ ([.open_] ++ ([.right] ++ ([.open_] ++ [.dec] ++ [.close]) ++ [.left]) ++ [.close]) := rfl
  rw [h]
  have s : ∀ c : Cmd, c ≠ .open_ → c ≠ .close → Balanced [c] := fun c => Balanced.single
  exact (s _ (by decide) (by decide)).append
    (((((s _ (by decide) (by decide)).append ((s _ (by decide) (by decide)).wrap)).append
      (s _ (by decide) (by decide)))).wrap)

example : compileToU16 false [93, 91] = .error .unwrap := by decide

#print axioms C01_compile_keeps_commands
#print axioms C01_compile_ignores_comments
#print axioms C01_compile_injective
#print axioms C02_jump_operands
#print axioms C02_every_bracket_matched
#print axioms C02_words_unique
#print axioms C03_refuted
#print axioms C03_reject_iff_underflow_partial
#print axioms C03_reject_iff_underflow_debug_partial
#print axioms C04_refuted
#print axioms C04_compile_correct_partial

end Verif.Props
